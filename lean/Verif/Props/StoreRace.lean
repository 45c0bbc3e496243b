import Verif.Proofs.StoreRace
import Verif.Props.StoreSteps
/-! C80: operations at different keys that overlap in time. -/
namespace Oups.Collection
open Oups.Indexer (Str)

section
variable {K C W : Type} [DecidableEq K] {E : Env K C W} {comps : K → List Str} {base : Path}

/-- Whatever the order of the calls to the operating system, the datasets at other keys are as before, and so are the files in
directories which are not in the directory of a key concerned. -/
theorem C80_untouched (hE : Lawful E comps) {fs : FS C} (hwf : fs.WF) {jobs : List (Job K C)} (hsep : Separate base comps fs jobs)
    {s : Sys C} (h : Sys.Reach E.names E.empty base comps fs jobs s) :
    s.fs.WF ∧ (∀ k, (∀ j ∈ jobs, j.key ≠ k) → s.fs.lookup (base ++ comps k) = fs.lookup (base ++ comps k)) ∧
    ∀ q, (∀ j ∈ jobs, ¬ base ++ comps j.key <+: q) →
      (∀ c, fs.lookup q = some c → E.names c ≠ [] → s.fs.lookup q = some c) ∧
      ∀ c, s.fs.lookup q = some c → E.names c ≠ [] → fs.lookup q = some c := by
  have hok := SysOk.reach hE hwf hsep.1 h
  exact ⟨hok.wf, hok.keys, hok.files⟩

/-- A write that comes to its end has written its result, and one that raises has written nothing, where there was nothing. -/
theorem C80_write (hE : Lawful E comps) {fs : FS C} (hwf : fs.WF) {jobs : List (Job K C)} (hsep : Separate base comps fs jobs)
    {s : Sys C} (h : Sys.Reach E.names E.empty base comps fs jobs s) {i : Nat} {k : K} {ms : List C} (hms : ms ≠ [])
    (hj : jobs[i]? = some (.write k ms)) :
    (s.procs[i]? = some .done → s.fs.lookup (base ++ comps k) = ms.getLast?) ∧
    (s.procs[i]? = some .raised → s.fs.lookup (base ++ comps k) = none ∧ fs.lookup (base ++ comps k) = none) := by
  have hok := SysOk.reach hE hwf hsep.1 h
  exact ⟨fun hp => hok.ok i _ _ hj hp hms, fun hp => hok.ok i _ _ hj hp⟩

/-- A deletion, be it complete or stopped by an exception, has removed the dataset. -/
theorem C80_delete (hE : Lawful E comps) {fs : FS C} (hwf : fs.WF) {jobs : List (Job K C)} (hsep : Separate base comps fs jobs)
    {s : Sys C} (h : Sys.Reach E.names E.empty base comps fs jobs s) {i : Nat} {k : K} {p : Proc C}
    (hj : jobs[i]? = some (.delete k)) (hp : s.procs[i]? = some p) (hf : p.Finished) :
    ∀ q, base ++ comps k <+: q → s.fs.lookup q = none := by
  have hok := SysOk.reach hE hwf hsep.1 h
  have hl : s.fs.lookup (base ++ comps k) = none := by
    have := hok.ok i _ _ hj hp
    cases p <;> first | exact this | exact absurd hf id
  intro q hq
  cases hl' : s.fs.lookup q with
  | none => rfl
  | some c =>
    have := hok.wf.prefix hq (by rw [hl']; rfl)
    rw [hl] at this; cases this

/-- No operation raises if keys that are deleted have a first name in their paths that other keys concerned do not have. -/
theorem C80_no_raise (hE : Lawful E comps) {fs : FS C} (hwf : fs.WF) {jobs : List (Job K C)} (hsep : Separate base comps fs jobs)
    (hf : FirstNamesDiffer comps jobs) {s : Sys C} (h : Sys.Reach E.names E.empty base comps fs jobs s) {i : Nat} :
    s.procs[i]? ≠ some .raised := fun hp => sound_reach hE hwf hsep hf h i _ hp

/-- Writes only, as by `AggStream` with `parallel=True`: no exception, whatever the keys. -/
theorem C80_writes (hE : Lawful E comps) {fs : FS C} (hwf : fs.WF) {jobs : List (Job K C)} (hn : (jobs.map Job.key).Nodup)
    (hw : ∀ j ∈ jobs, ¬ j.IsDelete) {s : Sys C} (h : Sys.Reach E.names E.empty base comps fs jobs s) {i : Nat} :
    s.procs[i]? ≠ some .raised :=
  C80_no_raise hE hwf ⟨hn, fun j hj hd => absurd hd (hw j hj)⟩
    (fun _ _ a _ _ ha _ hd => absurd hd (hw a (List.mem_of_getElem? ha))) h

/-- Operations come to their end: those which have not can go on, and there is a bound on the number of steps. -/
theorem C80_ends (hE : Lawful E comps) {fs : FS C} (hwf : fs.WF) {jobs : List (Job K C)} (hsep : Separate base comps fs jobs) :
    (∀ s, Sys.Reach E.names E.empty base comps fs jobs s → ∀ (i : Nat) p, s.procs[i]? = some p → ¬ p.Finished →
      ∃ fs' p', Sys.Step E.names E.empty base s ⟨fs', s.procs.set i p'⟩) ∧
    ∃ N, ∀ n s, Sys.Run E.names E.empty base n ⟨fs, jobs.map (Job.start base comps)⟩ s → n ≤ N := by
  refine ⟨fun s h i p hp hf => ?_, Sys.left E.names ⟨fs, jobs.map (Job.start base comps)⟩, fun n s hr => ?_⟩
  · have hok := SysOk.reach hE hwf hsep.1 h
    have hlt : i < jobs.length := by rw [← hok.length]; exact (List.getElem?_eq_some_iff.1 hp).1
    obtain ⟨fs', p', hs⟩ := can_step hE (hok.ok i _ p (List.getElem?_eq_getElem hlt) hp) hf
    exact ⟨fs', p', .mk hp hs⟩
  · have key : ∀ n (s0 s : Sys C), Sys.Reach E.names E.empty base comps fs jobs s0 → Sys.Run E.names E.empty base n s0 s →
        n ≤ s0.left E.names := by
      intro n
      induction n with
      | zero => intros; omega
      | succ n ih =>
        intro s0 s h0 hr
        cases hr with
        | cons h1 h2 =>
          have := left_step hE hsep.1 (SysOk.reach hE hwf hsep.1 h0) h1
          have := ih _ _ (h0.step h1) h2
          omega
    exact key n _ _ .start hr

/-- All operations finished, keys deleted having first names of their own: the datasets are those of the operations made one after
the other. -/
theorem C80_outcome (hE : Lawful E comps) {fs : FS C} (hwf : fs.WF) {jobs : List (Job K C)} (hsep : Separate base comps fs jobs)
    (hf : FirstNamesDiffer comps jobs) (hms : ∀ k ms, Job.write k ms ∈ jobs → ms ≠ []) {s : Sys C}
    (h : Sys.Reach E.names E.empty base comps fs jobs s) (hfin : ∀ p ∈ s.procs, p.Finished) (k : K) :
    Outcome base comps fs jobs k (s.fs.lookup (base ++ comps k)) := by
  have hok := SysOk.reach hE hwf hsep.1 h
  have hproc : ∀ (i : Nat) j, jobs[i]? = some j → s.procs[i]? = some .done := by
    intro i j hj
    have hlt : i < s.procs.length := by rw [hok.length]; exact (List.getElem?_eq_some_iff.1 hj).1
    have h1 : s.procs[i]? = some s.procs[i] := List.getElem?_eq_getElem hlt
    have h2 := hfin _ (List.mem_of_getElem? h1)
    cases hp : s.procs[i] with
    | done => rw [h1, hp]
    | raised => rw [hp] at h1; exact absurd h1 (C80_no_raise hE hwf hsep hf h)
    | _ => rw [hp] at h2; exact absurd h2 id
  refine ⟨fun ms hm => ?_, fun hm => ?_, fun hk => hok.keys k hk⟩
  · obtain ⟨i, hi⟩ := List.mem_iff_getElem?.1 hm
    exact (C80_write hE hwf hsep h (hms k ms hm) hi).1 (hproc i _ hi)
  · obtain ⟨i, hi⟩ := List.mem_iff_getElem?.1 hm
    exact C80_delete hE hwf hsep h hi (hproc i _ hi) trivial _ List.prefix_rfl

/-- Deletions only, all finished, whatever the keys and even if some raised: no directory left empty on the way to those that have
been deleted. -/
theorem C80_no_empty_left (hE : Lawful E comps) {fs : FS C} (hwf : fs.WF) {jobs : List (Job K C)}
    (hsep : Separate base comps fs jobs) (hdel : ∀ j ∈ jobs, j.IsDelete) {s : Sys C}
    (h : Sys.Reach E.names E.empty base comps fs jobs s) (hfin : ∀ p ∈ s.procs, p.Finished) {q : Path} (hb : base <+: q)
    (hne : q ≠ base) (hq : ∃ j ∈ jobs, q <+: base ++ comps j.key) : s.fs.isEmptyDir E.names q ≠ some true := by
  intro he
  obtain ⟨j, hj, hqj⟩ := hq
  by_cases hqe : q = base ++ comps j.key
  · obtain ⟨c, h1, _⟩ := isEmptyDir_true he
    obtain ⟨i, hi⟩ := List.mem_iff_getElem?.1 hj
    have hok := SysOk.reach hE hwf hsep.1 h
    have hlt : i < s.procs.length := by rw [hok.length]; exact (List.getElem?_eq_some_iff.1 hi).1
    have hp : s.procs[i]? = some s.procs[i] := List.getElem?_eq_getElem hlt
    have hd := hdel j hj
    cases j with
    | write k ms => exact hd
    | delete k =>
      have := C80_delete hE hwf hsep h hi hp (hfin _ (List.mem_of_getElem? hp)) q (by rw [hqe]; exact List.prefix_rfl)
      rw [h1] at this; cases this
  · obtain ⟨i, p, h1, h2⟩ := watched_reach hE hwf hsep hdel h q hb hne ⟨j, hj, hqj, hqe⟩ he
    have := hfin p (List.mem_of_getElem? h1)
    rcases h2 with rfl | rfl | ⟨d, rfl, _⟩ <;> exact this

end

/-! ### Keys of two names -/

def ab (b : Bool) : Str := if b then ['a'] else ['b']

def raceEnv : Env (Bool × Bool) (List Str) (List Str) where
  toPath k := Indexer.join '/' [ab k.1, ab k.2]
  fromPath s := [(true, true), (true, false), (false, true), (false, false)].find? fun k => Indexer.join '/' [ab k.1, ab k.2] = s
  depth := 2
  lt x y := (x.1 && !y.1) || (x.1 == y.1 && x.2 && !y.2)
  names c := c
  empty := []
  writer w _ := if w.any isParquetFile then some w else none

def raceComps (k : Bool × Bool) : List Str := [ab k.1, ab k.2]

theorem race_lawful : Lawful raceEnv raceComps where
  path k := rfl
  length k := rfl
  pos := by decide
  plain k s hs := by
    rcases k with ⟨_ | _, _ | _⟩ <;> simp [raceComps, ab] at hs
    · subst hs; decide
    · rcases hs with rfl | rfl <;> decide
    · rcases hs with rfl | rfl <;> decide
    · subst hs; decide
  back k := by rcases k with ⟨_ | _, _ | _⟩ <;> rfl
  lt_irrefl a := by rcases a with ⟨_ | _, _ | _⟩ <;> rfl
  lt_trans a b c := by rcases a with ⟨_ | _, _ | _⟩ <;> rcases b with ⟨_ | _, _ | _⟩ <;> rcases c with ⟨_ | _, _ | _⟩ <;> decide
  lt_total a b := by rcases a with ⟨_ | _, _ | _⟩ <;> rcases b with ⟨_ | _, _ | _⟩ <;> decide
  noFile := rfl
  writes w c c' h := by
    simp only [raceEnv] at h ⊢
    split at h
    · cases h; assumption
    · cases h

/-- Basepath "/d", datasets at "/d/a/a" and "/d/a/b". -/
def raceFs : FS (List Str) :=
  [([], []), ([['d']], []), ([['d'], ['a']], []), ([['d'], ['a'], ['a']], [pq]), ([['d'], ['a'], ['b']], [pq2])]

/-- A dataset at "/d/a/a". -/
def raceFs1 : FS (List Str) := [([], []), ([['d']], []), ([['d'], ['a']], []), ([['d'], ['a'], ['a']], [pq])]

theorem race_wf : raceFs.WF ∧ raceFs1.WF := by
  have hd : ∀ fs : FS (List Str), (fs.map Prod.fst).Nodup → (∀ e ∈ fs, e.1 = [] ∨ (fs.lookup e.1.dropLast).isSome) → fs.WF := by
    refine fun fs h1 h2 => ⟨h1, fun p x h => ?_⟩
    rw [lookup_isSome_iff, List.mem_map] at h
    obtain ⟨e, he, hep⟩ := h
    have := h2 e he
    rw [hep] at this
    simpa using this
  exact ⟨hd _ (by decide) (by decide), hd _ (by decide) (by decide)⟩

instance (j : Job (Bool × Bool) (List Str)) : Decidable j.IsDelete :=
  match j with
  | .write _ _ => isFalse id
  | .delete _ => isTrue trivial

/-- The dataset at "/d/a/a" is deleted while one is written at "/d/a/b": the deletion removes "/d/a", empty for now, after the write
has found it, and the write raises. -/
theorem C80_prune_race_fails :
    let jobs : List (Job (Bool × Bool) (List Str)) := [.delete (true, true), .write (true, false) [[pq2]]]
    Separate [['d']] raceComps raceFs1 jobs ∧
    ∃ s, Sys.Reach raceEnv.names raceEnv.empty [['d']] raceComps raceFs1 jobs s ∧ s.procs[1]? = some .raised ∧
      s.fs.lookup ([['d']] ++ raceComps (true, false)) = none := by
  refine ⟨⟨by decide, by decide⟩, ?_⟩
  have h0 := Sys.Reach.start (names := raceEnv.names) (empty := raceEnv.empty) (base := [['d']]) (comps := raceComps) (fs := raceFs1)
    (jobs := [.delete (true, true), .write (true, false) [[pq2]]])
  have h1 := h0.step (.mk (i := 1) rfl (.found (q := []) rfl))
  have h2 := h1.step (.mk (i := 1) rfl (.found rfl))
  have h3 := h2.step (.mk (i := 1) rfl (.found rfl))
  have h4 := h3.step (.mk (i := 0) rfl (.unlink (q := [['d'], ['a'], ['a']]) (c := [pq]) (c' := []) (by decide) rfl (by decide) (by decide)))
  have h5 := h4.step (.mk (i := 0) rfl (.rmsub (q := [['d'], ['a'], ['a']]) (by decide) rfl))
  have h6 := h5.step (.mk (i := 0) rfl (.removed rfl))
  have h7 := h6.step (.mk (i := 0) rfl (.empty (by decide) rfl))
  have h8 := h7.step (.mk (i := 0) rfl (.rmdir rfl))
  have h9 := h8.step (.mk (i := 1) rfl (.mkdirRaise rfl (by decide) rfl))
  exact ⟨_, h9, rfl, rfl⟩

/-- The datasets at "/d/a/a" and "/d/a/b" are deleted together: both deletions find "/d/a" empty, and the second to remove it raises,
its dataset being removed. -/
theorem C80_deletes_race_fails :
    let jobs : List (Job (Bool × Bool) (List Str)) := [.delete (true, true), .delete (true, false)]
    Separate [['d']] raceComps raceFs jobs ∧
    ∃ s, Sys.Reach raceEnv.names raceEnv.empty [['d']] raceComps raceFs jobs s ∧ s.procs[1]? = some .raised ∧
      s.fs.lookup ([['d']] ++ raceComps (true, false)) = none := by
  refine ⟨⟨by decide, by decide⟩, ?_⟩
  have h0 := Sys.Reach.start (names := raceEnv.names) (empty := raceEnv.empty) (base := [['d']]) (comps := raceComps) (fs := raceFs)
    (jobs := [.delete (true, true), .delete (true, false)])
  have h1 := h0.step (.mk (i := 0) rfl (.unlink (q := [['d'], ['a'], ['a']]) (c := [pq]) (c' := []) (by decide) rfl (by decide) (by decide)))
  have h2 := h1.step (.mk (i := 0) rfl (.rmsub (q := [['d'], ['a'], ['a']]) (by decide) rfl))
  have h3 := h2.step (.mk (i := 0) rfl (.removed rfl))
  have h4 := h3.step (.mk (i := 1) rfl (.unlink (q := [['d'], ['a'], ['b']]) (c := [pq2]) (c' := []) (by decide) rfl (by decide) (by decide)))
  have h5 := h4.step (.mk (i := 1) rfl (.rmsub (q := [['d'], ['a'], ['b']]) (by decide) rfl))
  have h6 := h5.step (.mk (i := 1) rfl (.removed rfl))
  have h7 := h6.step (.mk (i := 0) rfl (.empty (by decide) rfl))
  have h8 := h7.step (.mk (i := 1) rfl (.empty (by decide) rfl))
  have h9 := h8.step (.mk (i := 0) rfl (.rmdir rfl))
  have h10 := h9.step (.mk (i := 1) rfl (.rmdirRaise (by decide)))
  exact ⟨_, h10, rfl, rfl⟩

/-- The same, the second deletion looking in "/d/a" once the first has removed it: it raises too. -/
theorem C80_listdir_race_fails :
    let jobs : List (Job (Bool × Bool) (List Str)) := [.delete (true, true), .delete (true, false)]
    ∃ s, Sys.Reach raceEnv.names raceEnv.empty [['d']] raceComps raceFs jobs s ∧ s.procs[0]? = some .done ∧
      s.procs[1]? = some .raised ∧ s.fs.lookup ([['d']] ++ raceComps (true, false)) = none := by
  have h0 := Sys.Reach.start (names := raceEnv.names) (empty := raceEnv.empty) (base := [['d']]) (comps := raceComps) (fs := raceFs)
    (jobs := [.delete (true, true), .delete (true, false)])
  have h1 := h0.step (.mk (i := 0) rfl (.unlink (q := [['d'], ['a'], ['a']]) (c := [pq]) (c' := []) (by decide) rfl (by decide) (by decide)))
  have h2 := h1.step (.mk (i := 0) rfl (.rmsub (q := [['d'], ['a'], ['a']]) (by decide) rfl))
  have h3 := h2.step (.mk (i := 0) rfl (.removed rfl))
  have h4 := h3.step (.mk (i := 1) rfl (.unlink (q := [['d'], ['a'], ['b']]) (c := [pq2]) (c' := []) (by decide) rfl (by decide) (by decide)))
  have h5 := h4.step (.mk (i := 1) rfl (.rmsub (q := [['d'], ['a'], ['b']]) (by decide) rfl))
  have h6 := h5.step (.mk (i := 1) rfl (.removed rfl))
  have h7 := h6.step (.mk (i := 0) rfl (.empty (by decide) rfl))
  have h8 := h7.step (.mk (i := 0) rfl (.rmdir rfl))
  have h9 := h8.step (.mk (i := 0) rfl .top)
  have h10 := h9.step (.mk (i := 1) rfl (.gone (by decide) rfl))
  exact ⟨_, h10, rfl, rfl, rfl⟩

/-- Keys with different first names: "/d/a/a" is deleted while "/d/b/b" is written. -/
def raceJobs : List (Job (Bool × Bool) (List Str)) := [.delete (true, true), .write (false, false) [[pq], [pq, pq2]]]

theorem race_separate : Separate [['d']] raceComps raceFs raceJobs ∧ FirstNamesDiffer raceComps raceJobs := by
  refine ⟨⟨by decide, by decide⟩, ?_⟩
  intro i j a b hne ha hb hd
  match i, j with
  | 0, 0 => exact absurd rfl hne
  | 0, 1 =>
    simp only [raceJobs, List.getElem?_cons_zero, List.getElem?_cons_succ, Option.some.injEq] at ha hb
    subst ha; subst hb; decide
  | 1, _ =>
    simp only [raceJobs, List.getElem?_cons_zero, List.getElem?_cons_succ, Option.some.injEq] at ha
    subst ha; exact absurd hd id
  | 0, n + 2 => simp [raceJobs] at hb
  | n + 2, _ => simp [raceJobs] at ha

-- the two in turn: what there is at the end
example : ∃ s, Sys.Reach raceEnv.names raceEnv.empty [['d']] raceComps raceFs raceJobs s ∧ (∀ p ∈ s.procs, p.Finished) ∧
    s.fs.lookup [['d'], ['b'], ['b']] = some [pq, pq2] ∧ s.fs.lookup [['d'], ['a'], ['a']] = none ∧
    s.fs.lookup [['d'], ['a'], ['b']] = some [pq2] := by
  have h0 := Sys.Reach.start (names := raceEnv.names) (empty := raceEnv.empty) (base := [['d']]) (comps := raceComps) (fs := raceFs)
    (jobs := raceJobs)
  have h1 := h0.step (.mk (i := 1) rfl (.found (q := []) rfl))
  have h2 := h1.step (.mk (i := 0) rfl (.unlink (q := [['d'], ['a'], ['a']]) (c := [pq]) (c' := []) (by decide) rfl (by decide) (by decide)))
  have h3 := h2.step (.mk (i := 1) rfl (.found rfl))
  have h4 := h3.step (.mk (i := 1) rfl (.mkdir rfl (Or.inr rfl)))
  have h5 := h4.step (.mk (i := 0) rfl (.rmsub (q := [['d'], ['a'], ['a']]) (by decide) rfl))
  have h6 := h5.step (.mk (i := 1) rfl (.mkdir rfl (Or.inr rfl)))
  have h7 := h6.step (.mk (i := 1) rfl .made)
  have h8 := h7.step (.mk (i := 1) rfl (.files rfl))
  have h9 := h8.step (.mk (i := 0) rfl (.removed rfl))
  have h10 := h9.step (.mk (i := 1) rfl (.files rfl))
  have h11 := h10.step (.mk (i := 0) rfl (.stop (by decide) rfl))
  have h12 := h11.step (.mk (i := 1) rfl .written)
  refine ⟨_, h12, fun p hp => ?_, rfl, rfl, rfl⟩
  have hp' : p ∈ [Proc.done, Proc.done] := hp
  simp only [List.mem_cons, List.not_mem_nil, or_false, or_self] at hp'
  subst hp'; trivial

-- whatever their order
example {s : Sys (List Str)} (h : Sys.Reach raceEnv.names raceEnv.empty [['d']] raceComps raceFs raceJobs s)
    (hfin : ∀ p ∈ s.procs, p.Finished) : s.fs.lookup [['d'], ['b'], ['b']] = some [pq, pq2] ∧
    s.fs.lookup [['d'], ['a'], ['a']] = none ∧ s.fs.lookup [['d'], ['a'], ['b']] = some [pq2] ∧
    s.procs[0]? ≠ some .raised ∧ s.procs[1]? ≠ some .raised := by
  have ho := fun k => C80_outcome race_lawful race_wf.1 race_separate.1 race_separate.2
    (fun k ms hm => by simp [raceJobs] at hm; rw [hm.2]; simp) h hfin k
  refine ⟨(ho (false, false)).1 [[pq], [pq, pq2]] (by simp [raceJobs]), (ho (true, true)).2.1 (by simp [raceJobs]),
    (ho (true, false)).2.2 ?_, C80_no_raise race_lawful race_wf.1 race_separate.1 race_separate.2 h,
    C80_no_raise race_lawful race_wf.1 race_separate.1 race_separate.2 h⟩
  intro j hj
  simp only [raceJobs, List.mem_cons, List.not_mem_nil, or_false] at hj
  rcases hj with rfl | rfl <;> decide

-- "/d/a" does not stay once both datasets are deleted, be there an exception or not
example {s : Sys (List Str)} (h : Sys.Reach raceEnv.names raceEnv.empty [['d']] raceComps raceFs
    [.delete (true, true), .delete (true, false)] s) (hfin : ∀ p ∈ s.procs, p.Finished) :
    s.fs.isEmptyDir raceEnv.names [['d'], ['a']] ≠ some true :=
  C80_no_empty_left race_lawful race_wf.1 ⟨by decide, by decide⟩ (by decide) h hfin (by decide) (by decide)
    ⟨.delete (true, true), by simp, by decide⟩

end Oups.Collection
