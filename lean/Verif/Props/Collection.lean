import Verif.Proofs.CollectionStore
/-! Properties C07 to C11: collections of datasets. -/
set_option linter.unusedSimpArgs false
namespace Oups.Collection
open Oups.Indexer (Str FVal Schema levelStrs)

section
variable {K C W : Type} [DecidableEq K] {E : Env K C W} {comps : K → List Str}

/-! ### C07 -/

theorem Inv.mem_isSome {ps : PS K C} (h : Inv E comps ps) (k : K) :
    k ∈ ps.keys ↔ (storedDict E comps (resolve ps.basepath) ps.fs k).isSome := by
  rw [h.mem k, Stored, storedDict]
  cases ps.fs.lookup (resolve ps.basepath ++ comps k) with
  | none => simp
  | some c => simp only [Option.some.injEq, exists_eq_left']; split <;> simp_all

theorem Inv.get_eq (hE : Lawful E comps) {ps : PS K C} (h : Inv E comps ps) {k : K} (hk : k ∈ ps.keys) :
    ps.get E k = storedDict E comps (resolve ps.basepath) ps.fs k := by
  obtain ⟨c, hc, hp⟩ := (h.mem k).1 hk
  rw [PS.get, resolve_dir hE h.base, storedDict, hc]
  simp [hp]

theorem Inv.getD_eq {ps : PS K C} (h : Inv E comps ps) (k : K) :
    (storedDict E comps (resolve ps.basepath) ps.fs k).getD E.empty =
      (ps.fs.lookup (resolve ps.basepath ++ comps k)).getD E.empty := by
  rw [storedDict]
  cases hl : ps.fs.lookup (resolve ps.basepath ++ comps k) with
  | none => rfl
  | some c =>
    simp only
    split
    · rfl
    · rename_i hp
      rcases h.noStray k c hl with h1 | h1
      · exact absurd h1 hp
      · simp [h1]

theorem Inv.step_dict (hE : Lawful E comps) {ps : PS K C} (h : Inv E comps ps) (op : Op K W) :
    storedDict E comps (resolve ps.basepath) (ps.step E op).1.fs =
      Dict.step E.writer E.empty (storedDict E comps (resolve ps.basepath) ps.fs) op ∧
    (ps.step E op).2 = Dict.raises E.writer E.empty (storedDict E comps (resolve ps.basepath) ps.fs) op := by
  cases op with
  | del k =>
    refine ⟨?_, (h.del hE k).1⟩
    funext k'
    simp only [PS.step, Dict.step]
    by_cases hk : k ∈ ps.keys
    · rw [storedDict, h.lookup_del hE hk]
      by_cases e : k' = k
      · simp [e]
      · simp only [e, if_false]; rfl
    · rw [Inv.del_unknown hk]
      split
      · rename_i e
        subst e
        rw [h.mem_isSome] at hk
        simpa using hk
      · rfl
  | set key isDf w =>
    cases key with
    | none => exact ⟨rfl, rfl⟩
    | some k =>
      cases isDf with
      | false => exact ⟨rfl, rfl⟩
      | true =>
        simp only [PS.step, Dict.step, Dict.raises, h.getD_eq]
        cases hw : E.writer w ((ps.fs.lookup (resolve ps.basepath ++ comps k)).getD E.empty) with
        | none => rw [set_fail hE h.base hw]; exact ⟨rfl, rfl⟩
        | some c =>
          rw [set_spec hE h.base hw]
          refine ⟨?_, rfl⟩
          funext k'
          rw [storedDict]
          simp only
          rw [mkdirs_comps hE]
          by_cases e : k' = k
          · simp [e, hE.writes _ _ _ hw]
          · simp only [e, if_false]; rfl

theorem Inv.run_dict (hE : Lawful E comps) {ps : PS K C} (h : Inv E comps ps) (ops : List (Op K W)) :
    storedDict E comps (resolve ps.basepath) (ps.run E ops).fs =
      Dict.run E.writer E.empty (storedDict E comps (resolve ps.basepath) ps.fs) ops := by
  induction ops generalizing ps with
  | nil => rfl
  | cons op ops ih =>
    obtain ⟨h1, h2⟩ := h.step hE op
    have := ih h1
    rw [h2, (h.step_dict hE op).1] at this
    exact this

/-- **C07** After any sequence of operations, the keys in the collection are those of a dictionary subject to the same
operations, each key is there once, and reading a key gives what the dictionary holds. -/
theorem C07_dictionary (hE : Lawful E comps) {base : Str} {fs : FS C} (hb : PlainBase base) (hwf : fs.WF)
    (hcan : Canonical E comps (resolve base) fs) (hns : NoStray E comps (resolve base) fs) (ops : List (Op K W)) :
    let ps := (PS.openAt E base fs).run E ops
    let m := Dict.run E.writer E.empty (storedDict E comps (resolve base) fs) ops
    (∀ k, k ∈ ps.keys ↔ (m k).isSome) ∧ ps.keys.Nodup ∧ ∀ k ∈ ps.keys, ps.get E k = m k := by
  have h0 := Inv.openAt hE hb hwf hcan hns
  obtain ⟨h1, h2⟩ := h0.run hE ops
  have h3 := h0.run_dict hE ops
  simp only
  refine ⟨fun k => ?_, ?_, fun k hk => ?_⟩
  · rw [h1.mem_isSome, h2, h3]; rfl
  · refine h1.sorted.imp ?_
    rintro x y hxy rfl
    rw [hE.lt_irrefl] at hxy; cases hxy
  · rw [h1.get_eq hE hk, h2, h3]; rfl

/-- **C07** After any sequence of operations, the next one raises exactly when expected: wrong type of key or of data,
or failure of the writer on the dataset the dictionary holds. Deletions never raise. -/
theorem C07_errors (hE : Lawful E comps) {base : Str} {fs : FS C} (hb : PlainBase base) (hwf : fs.WF)
    (hcan : Canonical E comps (resolve base) fs) (hns : NoStray E comps (resolve base) fs) (ops : List (Op K W))
    (op : Op K W) :
    (((PS.openAt E base fs).run E ops).step E op).2 =
      Dict.raises E.writer E.empty (Dict.run E.writer E.empty (storedDict E comps (resolve base) fs) ops) op := by
  have h0 := Inv.openAt hE hb hwf hcan hns
  obtain ⟨h1, h2⟩ := h0.run hE ops
  have h3 := h0.run_dict hE ops
  rw [(h1.step_dict hE op).2, h2, h3]; rfl

/-- **C07** An operation on a key changes neither the presence nor the data of another key. -/
theorem C07_other_keys (hE : Lawful E comps) {base : Str} {fs : FS C} (hb : PlainBase base) (hwf : fs.WF)
    (hcan : Canonical E comps (resolve base) fs) (hns : NoStray E comps (resolve base) fs) (ops : List (Op K W))
    (op : Op K W) {k : K} (hk : op.key ≠ some k) :
    let ps := (PS.openAt E base fs).run E ops
    (k ∈ (ps.step E op).1.keys ↔ k ∈ ps.keys) ∧ (ps.step E op).1.get E k = ps.get E k := by
  have h0 := Inv.openAt hE hb hwf hcan hns
  obtain ⟨h1, h2⟩ := h0.run hE ops
  obtain ⟨h3, h4⟩ := h1.step hE op
  simp only
  have key : ((((PS.openAt E base fs).run E ops).step E op).1).fs.lookup (resolve base ++ comps k) =
      ((PS.openAt E base fs).run E ops).fs.lookup (resolve base ++ comps k) := by
    have hbase : ((PS.openAt E base fs).run E ops).basepath = base := h2
    revert h1 hbase
    generalize (PS.openAt E base fs).run E ops = ps
    intro h1 hbase
    cases op with
    | del k' =>
      simp only [Op.key, ne_eq, Option.some.injEq] at hk
      by_cases hk' : k' ∈ ps.keys
      · simp only [PS.step]
        rw [← hbase, h1.lookup_del hE hk', if_neg (fun e => hk e.symm)]
      · simp only [PS.step, Inv.del_unknown hk']
    | set key isDf w =>
      cases key with
      | none => rfl
      | some k' =>
        simp only [Op.key, ne_eq, Option.some.injEq] at hk
        cases isDf with
        | false => rfl
        | true =>
          simp only [PS.step]
          cases hw : E.writer w ((ps.fs.lookup (resolve ps.basepath ++ comps k')).getD E.empty) with
          | none => rw [set_fail hE h1.base hw]
          | some c =>
            rw [set_spec hE h1.base hw]
            simp only
            rw [hbase, mkdirs_comps hE, if_neg (fun e => hk e.symm)]
  constructor
  · rw [h3.mem, h1.mem, Stored, Stored, h4, h2]
    rw [show (PS.openAt E base fs).basepath = base from rfl, key]
  · rw [PS.get, PS.get, resolve_dir hE (h4 ▸ h1.base), resolve_dir hE h1.base, h4, h2]
    exact key

/-! ### C08 -/

/-- **C08** A new instance opened on the same basepath has the keys of the instance in use. -/
theorem C08_reopen (hE : Lawful E comps) {base : Str} {fs : FS C} (hb : PlainBase base) (hwf : fs.WF)
    (hcan : Canonical E comps (resolve base) fs) (hns : NoStray E comps (resolve base) fs) (ops : List (Op K W)) :
    let ps := (PS.openAt E base fs).run E ops
    (PS.openAt E base ps.fs).keys = ps.keys := by
  obtain ⟨h1, h2⟩ := (Inv.openAt hE hb hwf hcan hns).run hE ops
  simp only
  have h2 : ((PS.openAt E base fs).run E ops).basepath = base := h2
  refine sorted_ext hE (getKeys_sorted hE _ _) h1.sorted fun k => ?_
  rw [h1.mem k, h2, Stored]
  exact mem_getKeys hE h1.wf (by have := h1.canonical; rwa [h2] at this) k

/-! ### C09 -/

open Classical in
/-- **C09** Deleting a known key raises nothing, and makes disappear exactly the dataset directory and the directories
between basepath and it that are left without anything; the content of all others is unchanged. -/
theorem C09_del_known (hE : Lawful E comps) {base : Str} {fs : FS C} (hb : PlainBase base) (hwf : fs.WF)
    (hcan : Canonical E comps (resolve base) fs) (hns : NoStray E comps (resolve base) fs) (ops : List (Op K W)) {k : K} :
    let ps := (PS.openAt E base fs).run E ops
    k ∈ ps.keys → (ps.del E k).2 = none ∧ (ps.del E k).1.keys = ps.keys.filter (· ≠ k) ∧
    ∀ q, (ps.del E k).1.fs.lookup q =
      if Vanishes E.names ps.fs (resolve base) (resolve base ++ comps k) q then none else ps.fs.lookup q := by
  obtain ⟨h1, h2⟩ := (Inv.openAt hE hb hwf hcan hns).run hE ops
  simp only
  have h2 : ((PS.openAt E base fs).run E ops).basepath = base := h2
  revert h1 h2
  generalize (PS.openAt E base fs).run E ops = ps
  rintro h1 rfl hk
  obtain ⟨a1, a2, a3, a4, a5⟩ := del_spec hE h1.base h1.wf hk (h1.dirExists hk)
  refine ⟨a1, a3, fun q => ?_⟩
  rw [a5 q]
  have hd := hE.pos
  have hl := hE.length k
  have hsnoc : ∃ x, resolve ps.basepath ++ comps k = (resolve ps.basepath ++ (comps k).take (E.depth - 1)) ++ [x] := by
    have hlt : E.depth - 1 < (comps k).length := by omega
    refine ⟨(comps k)[E.depth - 1], ?_⟩
    rw [List.append_assoc, ← List.take_succ_eq_append_getElem hlt, show E.depth - 1 + 1 = (comps k).length by omega,
      List.take_length]
  obtain ⟨x, hx⟩ := hsnoc
  have up : ∀ q, q <+: resolve ps.basepath ++ comps k → ¬ resolve ps.basepath ++ comps k <+: q →
      q <+: resolve ps.basepath ++ (comps k).take (E.depth - 1) := by
    intro q h3 h4
    rw [hx] at h3 h4
    exact (prefix_snoc_iff.1 h3).resolve_left (fun e => h4 (e ▸ List.prefix_rfl))
  have hiff : (resolve ps.basepath ++ comps k <+: q ∨
      Prunable E.names (ps.fs.rmtree (resolve ps.basepath ++ comps k)) (resolve ps.basepath)
        (resolve ps.basepath ++ (comps k).take (E.depth - 1)) q) ↔
      Vanishes E.names ps.fs (resolve ps.basepath) (resolve ps.basepath ++ comps k) q := by
    constructor
    · rintro (h3 | ⟨b1, b2, b3, b4⟩)
      · exact Or.inl h3
      · refine Or.inr ⟨b1, b2, hx ▸ b3.trans (List.prefix_append _ _), fun q' c hq' hl' => ?_⟩
        by_cases hd' : resolve ps.basepath ++ comps k <+: q'
        · exact Or.inl hd'
        · have := b4 q' c hq' (by rw [lookup_rmtree, if_neg hd']; exact hl')
          exact Or.inr ⟨hx ▸ this.1.trans (List.prefix_append _ _), this.2⟩
    · rintro (h3 | ⟨b1, b2, b3, b4⟩)
      · exact Or.inl h3
      · by_cases hd' : resolve ps.basepath ++ comps k <+: q
        · exact Or.inl hd'
        · refine Or.inr ⟨b1, b2, up q b3 hd', fun q' c hq' hl' => ?_⟩
          rw [lookup_rmtree] at hl'
          split at hl'
          · cases hl'
          · rename_i hnd
            rcases b4 q' c hq' hl' with h5 | ⟨h5, h6⟩
            · exact absurd h5 hnd
            · exact ⟨up q' h5 hnd, h6⟩
  simp only [hiff]

/-- **C09** In particular basepath, what is outside it, and every directory with files that is not in the dataset
directory survive, unchanged. -/
theorem C09_survivors (hE : Lawful E comps) {base : Str} {fs : FS C} (hb : PlainBase base) (hwf : fs.WF)
    (hcan : Canonical E comps (resolve base) fs) (hns : NoStray E comps (resolve base) fs) (ops : List (Op K W)) (k : K)
    {q : Path} (hq : q = resolve base ∨ ¬ resolve base <+: q ∨
      (¬ resolve base ++ comps k <+: q ∧
        ∃ c, ((PS.openAt E base fs).run E ops).fs.lookup q = some c ∧ E.names c ≠ [])) :
    ((((PS.openAt E base fs).run E ops).del E k).1).fs.lookup q = ((PS.openAt E base fs).run E ops).fs.lookup q := by
  by_cases hk : k ∈ ((PS.openAt E base fs).run E ops).keys
  · obtain ⟨_, _, h3⟩ := C09_del_known hE hb hwf hcan hns ops hk
    rw [h3 q, if_neg]
    have hne : comps k ≠ [] := by
      intro e
      have h1 := hE.length k
      have h2 := hE.pos
      rw [e, List.length_nil] at h1
      omega
    rintro (h | ⟨h4, h5, h6, h7⟩)
    · rcases hq with rfl | hq | ⟨hq, _⟩
      · have := h.length_le
        have h0 := List.length_pos_iff.2 hne
        rw [List.length_append] at this
        omega
      · exact hq ((List.prefix_append _ _).trans h)
      · exact hq h
    · rcases hq with hq | hq | ⟨hq, c, hc, hn⟩
      · exact h5 hq
      · exact hq h4
      · rcases h7 q c List.prefix_rfl hc with h8 | ⟨_, h8⟩
        · exact hq h8
        · exact hn h8
  · rw [Inv.del_unknown hk]

/-- **C09** Deleting an unknown key changes nothing. -/
theorem C09_unknown (ps : PS K C) {k : K} (hk : k ∉ ps.keys) : ps.del E k = (ps, none) := Inv.del_unknown hk

/-! ### C10 -/

/-- **C10** If `set` raises, the key set and the files are the ones before the call. Any state, any argument. -/
theorem C10_failed_set (ps : PS K C) (key : Option K) (isDf : Bool) (w : W)
    (h : (ps.set E key isDf w).2 ≠ none) : (ps.set E key isDf w).1 = ps := by
  unfold PS.set at h ⊢
  split
  · rfl
  · split
    · rfl
    · simp only at h ⊢
      split
      · rfl
      · rename_i h1 _ _ h2
        simp [h1, h2] at h

/-! ### C11 -/

/-- **C11** After any sequence of operations, keys are iterated in strictly ascending order, hence without repetition. -/
theorem C11_ascending (hE : Lawful E comps) {base : Str} {fs : FS C} (hb : PlainBase base) (hwf : fs.WF)
    (hcan : Canonical E comps (resolve base) fs) (hns : NoStray E comps (resolve base) fs) (ops : List (Op K W)) :
    ((PS.openAt E base fs).run E ops).keys.Pairwise (fun a b => E.lt a b = true) ∧
    ((PS.openAt E base fs).run E ops).keys.Nodup := by
  obtain ⟨h1, _⟩ := (Inv.openAt hE hb hwf hcan hns).run hE ops
  refine ⟨h1.sorted, h1.sorted.imp ?_⟩
  rintro x y hxy rfl
  rw [hE.lt_irrefl] at hxy; cases hxy

theorem lookup_perm {fs fs' : FS C} (hp : fs.Perm fs') (hwf : fs.WF) (q : Path) : fs.lookup q = fs'.lookup q := by
  have key : ∀ (fs : FS C), (fs.map Prod.fst).Nodup → ∀ c, fs.lookup q = some c ↔ (q, c) ∈ fs := by
    intro fs
    induction fs with
    | nil => simp [FS.lookup]
    | cons e fs ih =>
      intro hn c
      obtain ⟨p, c'⟩ := e
      rw [List.map_cons, List.nodup_cons] at hn
      by_cases h : p = q
      · subst h
        simp only [FS.lookup, List.find?_cons, decide_true, Option.map_some, Option.some.injEq, List.mem_cons,
          Prod.mk.injEq, true_and]
        constructor
        · rintro rfl; exact Or.inl rfl
        · rintro (h | h)
          · exact h.symm
          · exact absurd (List.mem_map_of_mem (f := Prod.fst) h) hn.1
      · have := ih hn.2 c
        simp only [FS.lookup, List.find?_cons, decide_eq_false h] at this ⊢
        rw [this]
        simp only [List.mem_cons, Prod.mk.injEq]
        constructor
        · exact Or.inr
        · rintro (⟨h', _⟩ | h')
          · exact absurd h'.symm h
          · exact h'
  have hn' : (fs'.map Prod.fst).Nodup := (hp.map Prod.fst).nodup_iff.1 hwf.1
  ext c
  rw [key fs hwf.1, key fs' hn', hp.mem_iff]

/-- **C11** The keys of a new instance do not depend on the order in which directories are scanned. -/
theorem C11_scan_order (hE : Lawful E comps) (base : Str) {fs fs' : FS C} (hwf : fs.WF) (hp : fs.Perm fs') :
    (PS.openAt E base fs).keys = (PS.openAt E base fs').keys ∧
    (PS.openAt E base fs).keys.Pairwise (fun a b => E.lt a b = true) := by
  have hwf' : fs'.WF := by
    refine ⟨(hp.map Prod.fst).nodup_iff.1 hwf.1, fun p x => ?_⟩
    rw [← lookup_perm hp hwf, ← lookup_perm hp hwf]
    exact hwf.2 p x
  refine ⟨sorted_ext hE (getKeys_sorted hE _ _) (getKeys_sorted hE _ _) fun k => ?_, getKeys_sorted hE _ _⟩
  simp only [PS.openAt, getKeys]
  rw [(foldl_sortedAdd hE _ [] List.Pairwise.nil).2, (foldl_sortedAdd hE _ [] List.Pairwise.nil).2]
  simp only [List.not_mem_nil, false_or, List.mem_filterMap]
  refine exists_congr fun ⟨p, l⟩ => and_congr_left fun _ => ?_
  rw [mem_filesAtDepth hwf, mem_filesAtDepth hwf']
  simp only [lookup_perm hp hwf]

end

/-! ### The actual store -/

section
variable {R : Type} {sep : Char} {sch : Schema}

/-- **C07** for the store made of the indexing schemas and of the writer, from any tree whose datasets were written
for keys of the class: what is read at a key is the outcome of the writes at that key. -/
theorem C07_store (hsep : sep ≠ '/') (hw : sch.WF) (T : Writer.Table R) {base : Str} (hb : PlainBase base)
    {fs : FS (Option (List (Writer.RG R)))} (hfs : OupsTree sep sch (resolve base) fs)
    (ops : List (Op (Key sep sch) (Writer.Params × List R))) :
    let ps := (PS.openAt (storeEnv sep sch T) base fs).run (storeEnv sep sch T) ops
    let m := Dict.run (storeEnv sep sch T).writer none (storedDict (storeEnv sep sch T) (fun k => levelStrs sep k.1)
      (resolve base) fs) ops
    (∀ k, k ∈ ps.keys ↔ (m k).isSome) ∧ ps.keys.Nodup ∧ ∀ k ∈ ps.keys, ps.get (storeEnv sep sch T) k = m k :=
  C07_dictionary (store_lawful hsep hw T) hb hfs.1 (hfs.canonical hsep hw) OupsTree.noStray ops

/-- **C08** for the actual store. -/
theorem C08_store (hsep : sep ≠ '/') (hw : sch.WF) (T : Writer.Table R) {base : Str} (hb : PlainBase base)
    {fs : FS (Option (List (Writer.RG R)))} (hfs : OupsTree sep sch (resolve base) fs)
    (ops : List (Op (Key sep sch) (Writer.Params × List R))) :
    let ps := (PS.openAt (storeEnv sep sch T) base fs).run (storeEnv sep sch T) ops
    (PS.openAt (storeEnv sep sch T) base ps.fs).keys = ps.keys :=
  C08_reopen (store_lawful hsep hw T) hb hfs.1 (hfs.canonical hsep hw) OupsTree.noStray ops

/-- **C11** for the actual store: keys ascend in the order of their fields. -/
theorem C11_store (hsep : sep ≠ '/') (hw : sch.WF) (T : Writer.Table R) {base : Str} (hb : PlainBase base)
    {fs : FS (Option (List (Writer.RG R)))} (hfs : OupsTree sep sch (resolve base) fs)
    (ops : List (Op (Key sep sch) (Writer.Params × List R))) :
    ((PS.openAt (storeEnv sep sch T) base fs).run (storeEnv sep sch T) ops).keys.Pairwise
      (fun a b => cmpKey a.1 b.1 = .lt) := by
  refine (C11_ascending (store_lawful hsep hw T) hb hfs.1 (hfs.canonical hsep hw) OupsTree.noStray ops).1.imp ?_
  intro a b h
  simpa [storeEnv, classEnv] using h

end

/-! ### Concrete cases -/

/-- A class with two keys, 'a' and 'b'; a dataset is its list of file names; writing gives the listed files, the
writer fails on an empty list. -/
def toyEnv : Env Bool (List Str) (List Str) where
  toPath b := if b then ['a'] else ['b']
  fromPath s := if s = ['a'] then some true else if s = ['b'] then some false else none
  depth := 1
  lt a b := a && !b
  names c := c
  empty := []
  writer w _ := if w.any isParquetFile then some w else none

def toyComps (b : Bool) : List Str := [if b then ['a'] else ['b']]

theorem toy_lawful : Lawful toyEnv toyComps where
  path k := by cases k <;> rfl
  length k := by cases k <;> rfl
  pos := by decide
  plain k s hs := by cases k <;> simp [toyComps] at hs <;> subst hs <;> decide
  back k := by cases k <;> rfl
  lt_irrefl a := by cases a <;> rfl
  lt_trans a b c := by cases a <;> cases b <;> cases c <;> simp [toyEnv]
  lt_total a b := by cases a <;> cases b <;> simp [toyEnv]
  noFile := rfl
  writes w c c' h := by
    simp only [toyEnv] at h ⊢
    split at h
    · cases h; assumption
    · cases h

/-- Root, basepath "/d", another directory "/o" with a file, and a dataset at "/d/b". -/
def toyFs : FS (List Str) := [([], []), ([['d']], []), ([['o']], [['f']]), ([['d'], ['b']], [['x', '.', 'p', 'a', 'r', 'q']])]

theorem lookup_mem {C : Type} {fs : FS C} {p : Path} {c : C} (h : fs.lookup p = some c) : (p, c) ∈ fs := by
  simp only [FS.lookup, Option.map_eq_some_iff] at h
  obtain ⟨⟨p', c'⟩, h1, rfl⟩ := h
  have h2 := List.mem_of_find?_eq_some h1
  have h3 := List.find?_some h1
  simp only [decide_eq_true_eq] at h3
  subst h3; exact h2

theorem toy_wf : FS.WF toyFs := by
  refine ⟨by decide, fun p x h => ?_⟩
  obtain ⟨c, hc⟩ := Option.isSome_iff_exists.1 h
  have hm := lookup_mem hc
  simp only [toyFs, List.mem_cons, Prod.mk.injEq, List.not_mem_nil, or_false] at hm
  rcases hm with ⟨h, _⟩ | ⟨h, _⟩ | ⟨h, _⟩ | ⟨h, _⟩
  · simp at h
  · rw [(List.append_inj' (h.trans (List.nil_append [_]).symm) rfl).1]; rfl
  · rw [(List.append_inj' (h.trans (List.nil_append [_]).symm) rfl).1]; rfl
  · have h' : p ++ [x] = [['d']] ++ [['b']] := h
    rw [(List.append_inj' h' rfl).1]; rfl

theorem toy_base : resolve ['/', 'd'] = [['d']] := rfl

theorem toy_canonical : Canonical toyEnv toyComps (resolve ['/', 'd']) toyFs := by
  intro rel c k hl hr _ hk
  have hm := lookup_mem hl
  rw [toy_base] at hm
  cases rel with
  | nil => simp [toyEnv] at hr
  | cons x rel =>
    obtain rfl : rel = [] := List.length_eq_zero_iff.1 (by simpa [toyEnv] using hr)
    simp only [toyEnv, Indexer.join] at hk
    split at hk
    · cases hk; simp [toyComps, *]
    · split at hk
      · cases hk; simp [toyComps, *]
      · cases hk

theorem toy_noStray : NoStray toyEnv toyComps (resolve ['/', 'd']) toyFs := by
  intro k c h
  cases k
  · have : c = [['x', '.', 'p', 'a', 'r', 'q']] := by
      have h' : some c = some [['x', '.', 'p', 'a', 'r', 'q']] := h.symm
      cases h'; rfl
    subst this
    exact Or.inl (by decide)
  · exact absurd h (by rw [show toyFs.lookup (resolve ['/', 'd'] ++ toyComps true) = none from rfl]; simp)

def toyOps : List (Op Bool (List Str)) :=
  [.set (some true) true [['y', '.', 'p', 'a', 'r', 'q']], .set none true [], .set (some false) true [], .del false]

/-- The hypotheses of C07 to C11 are met by a store with a dataset and another directory, and the history above; the
resulting keys and the datasets are as expected. -/
example :
    let ps := (PS.openAt toyEnv ['/', 'd'] toyFs).run toyEnv toyOps
    (∀ k, k ∈ ps.keys ↔ (Dict.run toyEnv.writer toyEnv.empty (storedDict toyEnv toyComps [['d']] toyFs) toyOps k).isSome) ∧
    ps.keys.Nodup ∧
    ∀ k ∈ ps.keys, ps.get toyEnv k = Dict.run toyEnv.writer toyEnv.empty (storedDict toyEnv toyComps [['d']] toyFs) toyOps k :=
  C07_dictionary toy_lawful (by simp [PlainBase]) toy_wf toy_canonical toy_noStray toyOps

example : ((PS.openAt toyEnv ['/', 'd'] toyFs).run toyEnv toyOps).keys = [true] := by decide

example : (PS.openAt toyEnv ['/', 'd'] ((PS.openAt toyEnv ['/', 'd'] toyFs).run toyEnv toyOps).fs).keys =
    ((PS.openAt toyEnv ['/', 'd'] toyFs).run toyEnv toyOps).keys :=
  C08_reopen toy_lawful (by simp [PlainBase]) toy_wf toy_canonical toy_noStray toyOps

example : false ∈ (PS.openAt toyEnv ['/', 'd'] toyFs).keys := by decide

example : ((PS.openAt toyEnv ['/', 'd'] toyFs).del toyEnv false).1.fs.lookup [['o']] = some [['f']] :=
  C09_survivors toy_lawful (by simp [PlainBase]) toy_wf toy_canonical toy_noStray [] false
    (Or.inr (Or.inl (by decide)))

/-- **C09** fails with a trailing '/' in basepath: deleting the last key removes basepath itself, and raises. -/
theorem C09_trailing_slash_fails :
    let ps := PS.openAt toyEnv ['/', 'd', '/'] toyFs
    false ∈ ps.keys ∧ (ps.del toyEnv false).2 = some .fileNotFound ∧
      ps.fs.lookup [['d']] = some [] ∧ (ps.del toyEnv false).1.fs.lookup [['d']] = none := by
  decide

example : ((PS.openAt toyEnv ['/', 'd'] toyFs).set toyEnv (some true) true []).1 = PS.openAt toyEnv ['/', 'd'] toyFs :=
  C10_failed_set _ _ _ _ (by decide)

/-- An empty store for the two-level class `sch2`, and keys of it. -/
example (T : Writer.Table Int) (ops : List (Op (Key '_' Indexer.sch2) (Writer.Params × List Int))) :
    ((PS.openAt (storeEnv '_' Indexer.sch2 T) ['d'] []).run (storeEnv '_' Indexer.sch2 T) ops).keys.Pairwise
      (fun a b => cmpKey a.1 b.1 = .lt) :=
  C11_store (by decide) Indexer.key2_wf T (by simp [PlainBase]) ⟨⟨by simp, by simp [FS.lookup]⟩, by simp [FS.lookup]⟩ ops

theorem key2_isKey : IsKey '_' Indexer.sch2 Indexer.key2 :=
  ⟨Indexer.key2_conf, Indexer.validate_complete _ _ Indexer.key2_valid,
    .nest (fs := [.str ['a', 'b'], .int 7]) (by simp) (.flat (by simp))⟩

/-- Writing one row at a key and reopening: the key is there, with that row. -/
example : let T : Writer.Table Int := ⟨[0], fun _ r => r⟩
    let E := storeEnv '_' Indexer.sch2 T
    let ps := (PS.openAt E ['d'] []).run E [.set (some ⟨_, key2_isKey⟩) true ({}, [5])]
    (⟨_, key2_isKey⟩ : Key '_' Indexer.sch2) ∈ ps.keys ∧
      ps.get E ⟨_, key2_isKey⟩ = some (some [⟨0, [5]⟩]) := by
  intro T E ps
  obtain ⟨h1, _, h3⟩ := C07_store (sep := '_') (by decide) Indexer.key2_wf T (base := ['d']) (by simp [PlainBase])
    (fs := []) ⟨⟨by simp, by simp [FS.lookup]⟩, by simp [FS.lookup]⟩ [.set (some ⟨_, key2_isKey⟩) true ({}, [5])]
  have hw : E.writer ({}, [5]) none = some (some [⟨0, [5]⟩]) := by rfl
  have hm : Dict.run E.writer none (storedDict E (fun k => levelStrs '_' k.1) (resolve ['d']) [])
      [.set (some (⟨_, key2_isKey⟩ : Key '_' Indexer.sch2)) true ({}, [5])] ⟨_, key2_isKey⟩ = some (some [⟨0, [5]⟩]) := by
    simp only [Dict.run, List.foldl_cons, List.foldl_nil, Dict.step]
    rw [show ((storedDict E (fun k => levelStrs '_' k.1) (resolve ['d']) [] ⟨_, key2_isKey⟩).getD none) = none from rfl, hw]
    simp
  have hk := (h1 ⟨_, key2_isKey⟩).2 (by rw [hm]; rfl)
  exact ⟨hk, (h3 _ hk).trans hm⟩

end Oups.Collection
