import Verif.Spec.StoreRace
import Verif.Proofs.StoreSteps
/-! Operations that overlap in time. -/
namespace Oups.Collection
open Oups.Indexer (Str)

section
variable {K C W : Type} [DecidableEq K] {E : Env K C W} {comps : K → List Str} {base : Path}

/-- Where an operation is, and what there is in its directory. -/
def Ok (E : Env K C W) (comps : K → List Str) (base : Path) (fs0 fs : FS C) : Job K C → Proc C → Prop
  | .write k ms, .making todo d ms' => d = base ++ comps k ∧ ms' = ms ∧
      (∃ pre, (List.range (d.length + 1)).map d.take = pre ++ todo ∧ (d ∈ pre → (fs.lookup d).isSome)) ∧
      (fs.lookup d = fs0.lookup d ∨ (fs0.lookup d = none ∧ fs.lookup d = some E.empty))
  | .write k ms, .writing d ms' => d = base ++ comps k ∧ (fs.lookup d).isSome ∧
      ∃ pre, ms = pre ++ ms' ∧ (pre ≠ [] → fs.lookup d = pre.getLast?)
  | .write k ms, .done => ms ≠ [] → fs.lookup (base ++ comps k) = ms.getLast?
  | .write k _, .raised => fs.lookup (base ++ comps k) = none ∧ fs0.lookup (base ++ comps k) = none
  | .delete k, .removing d => d = base ++ comps k
  | .delete k, .looking u => fs.lookup (base ++ comps k) = none ∧ base <+: u ∧ u <+: base ++ comps k ∧ u ≠ base ++ comps k
  | .delete k, .pruning u => fs.lookup (base ++ comps k) = none ∧ base <+: u ∧ u <+: base ++ comps k ∧ u ≠ base ++ comps k ∧
      u ≠ base
  | .delete k, .done => fs.lookup (base ++ comps k) = none
  | .delete k, .raised => fs.lookup (base ++ comps k) = none
  | _, _ => False

theorem Ok.frame {fs0 fs fs' : FS C} {j : Job K C} {p : Proc C} (h : Ok E comps base fs0 fs j p)
    (hl : fs'.lookup (base ++ comps j.key) = fs.lookup (base ++ comps j.key)) : Ok E comps base fs0 fs' j p := by
  cases j with
  | write k ms =>
    simp only [Job.key] at hl
    cases p <;> simp only [Ok] at h ⊢
    · obtain ⟨rfl, h2, h3, h4⟩ := h
      rw [hl]; exact ⟨rfl, h2, h3, h4⟩
    · obtain ⟨rfl, h2, h3⟩ := h
      rw [hl]; exact ⟨rfl, h2, h3⟩
    · rw [hl]; exact h
    · rw [hl]; exact h
  | delete k =>
    simp only [Job.key] at hl
    cases p <;> simp only [Ok] at h ⊢
    · exact h
    · rw [hl]; exact h
    · rw [hl]; exact h
    · rw [hl]; exact h
    · rw [hl]; exact h

/-- What a step of an operation may change: what is in its directory, and whether there are directories leading to it. -/
structure Effect (E : Env K C W) (comps : K → List Str) (base : Path) (j : Job K C) (fs fs' : FS C) : Prop where
  wf : fs'.WF
  other : ∀ q, ¬ base ++ comps j.key <+: q → fs'.lookup q = fs.lookup q ∨
    (q <+: base ++ comps j.key ∧ q ≠ base ++ comps j.key ∧
      ((fs.lookup q = none ∧ fs'.lookup q = some E.empty ∧ ¬ j.IsDelete) ∨
        ∃ c, fs.lookup q = some c ∧ E.names c = [] ∧ fs'.lookup q = none ∧ j.IsDelete ∧ base <+: q ∧ q ≠ base))

theorem Effect.refl {j : Job K C} {fs : FS C} (h : fs.WF) : Effect E comps base j fs fs := ⟨h, fun _ _ => Or.inl rfl⟩

theorem mem_takes {d q : Path} (h : q ∈ (List.range (d.length + 1)).map d.take) : q <+: d := (take_mem_iff d q).1 h

theorem WF_mkdir {fs : FS C} (h : fs.WF) {q : Path} (c : C) (hq : q = [] ∨ (fs.lookup q.dropLast).isSome) : (fs.put q c).WF := by
  refine ⟨nodup_put h.1 _ _, fun p x hx => ?_⟩
  rw [lookup_put] at hx ⊢
  split
  · rfl
  · split at hx
    · rename_i h1 h2
      subst h2
      rcases hq with hq | hq
      · simp at hq
      · simpa using hq
    · exact h.2 p x hx

theorem Ok.step (hE : Lawful E comps) {fs0 fs fs' : FS C} {j : Job K C} {p p' : Proc C} (hwf : fs.WF)
    (h : Ok E comps base fs0 fs j p) (hs : Proc.Step E.names E.empty base fs p fs' p') :
    Ok E comps base fs0 fs' j p' ∧ Effect E comps base j fs fs' := by
  have hpos : ∀ k, base ++ comps k ≠ base := fun k e => by
    have := congrArg List.length e
    have h1 := hE.length k
    have h2 := hE.pos
    simp at this; rw [this] at h1; simp at h1; omega
  cases j with
  | write k ms =>
    cases hs <;> simp only [Ok, Job.key] at h ⊢
    case found q todo d ms' hq =>
      obtain ⟨rfl, rfl, ⟨pre, h1, h2⟩, h4⟩ := h
      refine ⟨⟨rfl, rfl, ⟨pre ++ [q], by simpa using h1, fun hm => ?_⟩, h4⟩, .refl hwf⟩
      rcases List.mem_append.1 hm with hm | hm
      · exact h2 hm
      · rw [List.mem_singleton.1 hm]; exact hq
    case mkdir q todo d ms' hn hp =>
      obtain ⟨rfl, rfl, ⟨pre, h1, h2⟩, h4⟩ := h
      have hpre : q <+: base ++ comps k := mem_takes (by rw [h1]; simp)
      refine ⟨⟨rfl, rfl, ⟨pre ++ [q], by simpa using h1, fun hm => ?_⟩, ?_⟩, WF_mkdir hwf _ hp, fun q' hq' => ?_⟩
      · rw [lookup_put]
        split
        · rfl
        · rename_i hne
          rcases List.mem_append.1 hm with hm | hm
          · exact h2 hm
          · exact absurd (List.mem_singleton.1 hm) hne
      · rw [lookup_put]
        split
        · rename_i e
          subst e
          rcases h4 with h4 | h4
          · exact Or.inr ⟨by rw [← h4]; exact hn, rfl⟩
          · exact Or.inr ⟨h4.1, rfl⟩
        · exact h4
      · rw [lookup_put]
        split
        · rename_i e
          subst e
          refine Or.inr ⟨hpre, fun e => ?_, Or.inl ⟨hn, rfl, id⟩⟩
          have e : q' = base ++ comps k := e
          exact hq' (by rw [e]; exact List.prefix_rfl)
        · exact Or.inl rfl
    case mkdirRaise q todo d ms' hn hne hp =>
      obtain ⟨rfl, rfl, ⟨pre, h1, h2⟩, h4⟩ := h
      have hpre : q <+: base ++ comps k := mem_takes (by rw [h1]; simp)
      have hd : fs.lookup (base ++ comps k) = none := by
        cases hl : fs.lookup (base ++ comps k) with
        | none => rfl
        | some c =>
          have := hwf.prefix hpre (by rw [hl]; rfl)
          rw [hn] at this; cases this
      refine ⟨⟨hd, ?_⟩, .refl hwf⟩
      rcases h4 with h4 | h4
      · rw [← h4]; exact hd
      · exact h4.1
    case made d ms' =>
      obtain ⟨rfl, rfl, ⟨pre, h1, h2⟩, h4⟩ := h
      refine ⟨⟨rfl, h2 ?_, [], rfl, fun h => absurd rfl h⟩, .refl hwf⟩
      rw [List.append_nil] at h1
      rw [← h1, take_mem_iff]
      exact List.prefix_rfl
    case files d c ms' hq =>
      obtain ⟨rfl, h2, pre, h3, h4⟩ := h
      refine ⟨⟨rfl, by simp [lookup_put], pre ++ [c], by simpa using h3, fun _ => ?_⟩, WF_put hwf _ hq, fun q hq' => ?_⟩
      · simp [lookup_put]
      · rw [lookup_put, if_neg]
        · exact Or.inl rfl
        · rintro rfl
          exact hq' List.prefix_rfl
    case filesRaise d c ms' hq =>
      obtain ⟨rfl, h2, _⟩ := h
      rw [hq] at h2; cases h2
    case written d =>
      obtain ⟨rfl, h2, pre, h3, h4⟩ := h
      rw [List.append_nil] at h3
      subst h3
      exact ⟨h4, .refl hwf⟩
  | delete k =>
    cases hs <;> simp only [Ok, Job.key] at h ⊢
    case unlink d q c c' hd hl hsub hshort =>
      subst h
      refine ⟨rfl, WF_put hwf _ (by rw [hl]; rfl), fun q' hq' => ?_⟩
      rw [lookup_put, if_neg]
      · exact Or.inl rfl
      · rintro rfl; exact hq' hd
    case rmsub d q hd he =>
      subst h
      obtain ⟨c, h1, h2, h3⟩ := isEmptyDir_true he
      refine ⟨rfl, hwf.rmdir h3, fun q' hq' => ?_⟩
      rw [lookup_rmdir, if_neg]
      · exact Or.inl rfl
      · rintro rfl; exact hq' hd
    case removed d hd =>
      subst h
      refine ⟨⟨hd, ?_, List.dropLast_prefix _, fun e => ?_⟩, .refl hwf⟩
      · rw [List.dropLast_append_of_ne_nil]
        · exact List.prefix_append _ _
        · intro e; exact hpos k (by rw [e]; simp)
      · have := congrArg List.length e
        have h1 := hE.length k
        have h2 := hE.pos
        simp at this; omega
    case top => exact ⟨h.1, .refl hwf⟩
    case stop => exact ⟨h.1, .refl hwf⟩
    case gone => exact ⟨h.1, .refl hwf⟩
    case empty u hu he => exact ⟨⟨h.1, h.2.1, h.2.2.1, h.2.2.2, hu⟩, .refl hwf⟩
    case rmdir u he =>
      obtain ⟨c, h1, h2, h3⟩ := isEmptyDir_true he
      obtain ⟨g1, g2, g3, g4, g5⟩ := h
      refine ⟨⟨?_, ?_, (List.dropLast_prefix _).trans g3, fun e => ?_⟩, hwf.rmdir h3, fun q hq => ?_⟩
      · rw [lookup_rmdir]; split
        · rfl
        · exact g1
      · obtain ⟨r, rfl⟩ := g2
        rw [List.dropLast_append_of_ne_nil]
        · exact List.prefix_append _ _
        · rintro rfl; exact g5 (by simp)
      · have h5 := congrArg List.length e
        have h6 := g3.length_le
        have h7 := hE.length k
        have h8 := hE.pos
        simp at h5 h6; omega
      · rw [lookup_rmdir]
        split
        · rename_i e; subst e
          exact Or.inr ⟨g3, g4, Or.inr ⟨c, h1, h2, rfl, trivial, g2, g5⟩⟩
        · exact Or.inl rfl
    case rmdirRaise => exact ⟨h.1, .refl hwf⟩

/-- Directory of a job. -/
theorem effect_key (hE : Lawful E comps) {j : Job K C} {fs fs' : FS C} (h : Effect E comps base j fs fs') {k : K}
    (hk : k ≠ j.key) : fs'.lookup (base ++ comps k) = fs.lookup (base ++ comps k) := by
  rcases h.other (base ++ comps k) (fun hp => hk (comps_prefix hE hp).symm) with h | h
  · exact h
  · exact absurd (comps_prefix hE h.1) hk

/-- All the operations. -/
structure SysOk (E : Env K C W) (comps : K → List Str) (base : Path) (fs0 : FS C) (jobs : List (Job K C)) (s : Sys C) :
    Prop where
  wf : s.fs.WF
  length : s.procs.length = jobs.length
  ok : ∀ (i : Nat) j p, jobs[i]? = some j → s.procs[i]? = some p → Ok E comps base fs0 s.fs j p
  files : ∀ q, (∀ j ∈ jobs, ¬ base ++ comps j.key <+: q) →
    (∀ c, fs0.lookup q = some c → E.names c ≠ [] → s.fs.lookup q = some c) ∧
    ∀ c, s.fs.lookup q = some c → E.names c ≠ [] → fs0.lookup q = some c
  keys : ∀ k, (∀ j ∈ jobs, j.key ≠ k) → s.fs.lookup (base ++ comps k) = fs0.lookup (base ++ comps k)

theorem key_ne {jobs : List (Job K C)} (hn : (jobs.map Job.key).Nodup) {i i' : Nat} {j j' : Job K C} (hi : jobs[i]? = some j)
    (hi' : jobs[i']? = some j') (hne : i ≠ i') : j.key ≠ j'.key := by
  intro e
  have h1 : (jobs.map Job.key)[i]? = some j.key := by rw [List.getElem?_map, hi]; rfl
  have h2 : (jobs.map Job.key)[i']? = some j.key := by rw [List.getElem?_map, hi', e]; rfl
  obtain ⟨a1, a2⟩ := List.getElem?_eq_some_iff.1 h1
  obtain ⟨b1, b2⟩ := List.getElem?_eq_some_iff.1 h2
  have hp := List.pairwise_iff_getElem.1 hn
  rcases Nat.lt_or_gt_of_ne hne with hlt | hlt
  · exact hp i i' a1 b1 hlt (a2.trans b2.symm)
  · exact hp i' i b1 a1 hlt (b2.trans a2.symm)

/-- A step of one operation: which one, and its effect. -/
theorem SysOk.effect (hE : Lawful E comps) {fs0 : FS C} {jobs : List (Job K C)} {s s' : Sys C}
    (h : SysOk E comps base fs0 jobs s) (hs : Sys.Step E.names E.empty base s s') :
    ∃ (i : Nat) (j : Job K C) (p p' : Proc C), jobs[i]? = some j ∧ s.procs[i]? = some p ∧ s'.procs = s.procs.set i p' ∧
      Proc.Step E.names E.empty base s.fs p s'.fs p' ∧
      Ok E comps base fs0 s'.fs j p' ∧ Effect E comps base j s.fs s'.fs := by
  obtain ⟨hi, hp⟩ := hs
  rename_i i p p' fs'
  have hlt : i < jobs.length := by rw [← h.length]; exact (List.getElem?_eq_some_iff.1 hi).1
  have hj : jobs[i]? = some jobs[i] := List.getElem?_eq_getElem hlt
  obtain ⟨h1, h2⟩ := (h.ok i _ p hj hi).step hE h.wf hp
  exact ⟨i, _, p, p', hj, hi, rfl, hp, h1, h2⟩

theorem get_set {α : Type} {l : List α} {i i' : Nat} {a x : α} (h : (l.set i a)[i']? = some x) :
    (i = i' ∧ x = a) ∨ (i ≠ i' ∧ l[i']? = some x) := by
  rw [List.getElem?_set] at h
  split at h
  · rename_i e
    split at h
    · exact Or.inl ⟨e, (Option.some.inj h).symm⟩
    · cases h
  · rename_i e; exact Or.inr ⟨e, h⟩

theorem SysOk.step (hE : Lawful E comps) {fs0 : FS C} {jobs : List (Job K C)} (hn : (jobs.map Job.key).Nodup) {s s' : Sys C}
    (h : SysOk E comps base fs0 jobs s) (hs : Sys.Step E.names E.empty base s s') : SysOk E comps base fs0 jobs s' := by
  obtain ⟨i, j, p, p', hj, hi, hps, hst, hok, he⟩ := h.effect hE hs
  refine ⟨he.wf, by rw [hps, List.length_set]; exact h.length, ?_, ?_, ?_⟩
  · intro i' j' q hj' hq
    rw [hps] at hq
    rcases get_set hq with ⟨rfl, rfl⟩ | ⟨hne, hq⟩
    · rw [hj] at hj'; cases hj'; exact hok
    · exact (h.ok i' j' q hj' hq).frame (effect_key hE he (key_ne hn hj' hj (Ne.symm hne)))
  · intro q hq
    obtain ⟨f1, f2⟩ := h.files q hq
    rcases he.other q (hq j (List.mem_of_getElem? hj)) with h1 | ⟨_, _, h1 | h1⟩
    · rw [h1]; exact ⟨f1, f2⟩
    · constructor
      · intro c hc hne
        have := f1 c hc hne
        rw [h1.1] at this; cases this
      · intro c hc hne
        rw [h1.2.1] at hc; cases hc
        exact absurd hE.noFile hne
    · obtain ⟨c', g1, g2, g3, _⟩ := h1
      constructor
      · intro c hc hne
        have := f1 c hc hne
        rw [g1] at this; cases this
        exact absurd g2 hne
      · intro c hc hne
        rw [g3] at hc; cases hc
  · intro k hk
    rw [effect_key hE he (Ne.symm (hk j (List.mem_of_getElem? hj)))]
    exact h.keys k hk

theorem SysOk.start (fs : FS C) (hwf : fs.WF) (jobs : List (Job K C)) :
    SysOk E comps base fs jobs ⟨fs, jobs.map (Job.start base comps)⟩ := by
  refine ⟨hwf, by simp, ?_, fun q _ => ⟨fun c h _ => h, fun c h _ => h⟩, fun _ _ => rfl⟩
  intro i j p hj hp
  simp only [List.getElem?_map, hj, Option.map_some, Option.some.injEq] at hp
  subst hp
  cases j with
  | write k ms => exact ⟨rfl, rfl, ⟨[], rfl, by simp⟩, Or.inl rfl⟩
  | delete k => exact rfl

theorem SysOk.reach (hE : Lawful E comps) {fs : FS C} (hwf : fs.WF) {jobs : List (Job K C)} (hn : (jobs.map Job.key).Nodup)
    {s : Sys C} (h : Sys.Reach E.names E.empty base comps fs jobs s) : SysOk E comps base fs jobs s := by
  induction h with
  | start => exact .start fs hwf jobs
  | step _ hs ih => exact ih.step hE hn hs

/-! ### No exception -/

/-- What an operation relies on is there. -/
def Sound (names : C → List Str) (fs : FS C) : Proc C → Prop
  | .making todo d _ => ∃ pre, (List.range (d.length + 1)).map d.take = pre ++ todo ∧ ∀ q ∈ pre, (fs.lookup q).isSome
  | .writing _ _ => True
  | .removing d => (fs.lookup d.dropLast).isSome
  | .looking u => (fs.lookup u).isSome
  | .pruning u => fs.isEmptyDir names u = some true
  | .done => True
  | .raised => False

theorem sound_own (hE : Lawful E comps) {fs0 fs fs' : FS C} {j : Job K C} {p p' : Proc C} (hwf : fs.WF)
    (h : Ok E comps base fs0 fs j p) (hsd : Sound E.names fs p) (hs : Proc.Step E.names E.empty base fs p fs' p') :
    Sound E.names fs' p' := by
  have hlt : ∀ k, (base ++ comps k).dropLast ≠ base ++ comps k := fun k e => by
    have := congrArg List.length e
    have h1 := hE.length k
    have h2 := hE.pos
    simp at this; omega
  cases hs <;> simp only [Sound] at hsd ⊢
  case found q todo d ms hq =>
    obtain ⟨pre, h1, h2⟩ := hsd
    refine ⟨pre ++ [q], by simpa using h1, fun q' hq' => ?_⟩
    rcases List.mem_append.1 hq' with hq' | hq'
    · exact h2 q' hq'
    · rw [List.mem_singleton.1 hq']; exact hq
  case mkdir q todo d ms hn hp =>
    obtain ⟨pre, h1, h2⟩ := hsd
    refine ⟨pre ++ [q], by simpa using h1, fun q' hq' => ?_⟩
    rw [lookup_put]
    split
    · rfl
    · rename_i hne
      rcases List.mem_append.1 hq' with hq' | hq'
      · exact h2 q' hq'
      · exact absurd (List.mem_singleton.1 hq') hne
  case mkdirRaise q todo d ms hn hne hp =>
    obtain ⟨pre, h1, h2⟩ := hsd
    have hq : q <+: d := mem_takes (by rw [h1]; simp)
    have hmem : q.dropLast ∈ pre ++ q :: todo := by
      rw [← h1, take_mem_iff]
      exact (List.dropLast_prefix _).trans hq
    have hsorted : (pre ++ q :: todo).Pairwise (fun a b => a.length < b.length) := by
      rw [← h1, List.pairwise_map]
      refine List.Pairwise.imp_of_mem ?_ List.pairwise_lt_range
      intro a b ha hb hab
      simp only [List.length_take, List.mem_range] at ha hb ⊢
      omega
    have hin : q.dropLast ∈ pre := by
      rcases List.mem_append.1 hmem with hm | hm
      · exact hm
      · have hlen : q.dropLast.length < q.length := by
          have : q.length ≠ 0 := fun e => hne (List.length_eq_zero_iff.1 e)
          simp; omega
        rcases List.mem_cons.1 hm with hm | hm
        · rw [hm] at hlen; omega
        · have := (List.pairwise_cons.1 (List.pairwise_append.1 hsorted).2.1).1 _ hm
          omega
    have := h2 _ hin
    rw [hp] at this; cases this
  case filesRaise d c ms hq =>
    cases j with
    | write k ms' =>
      obtain ⟨rfl, h2, _⟩ := h
      rw [hq] at h2; cases h2
    | delete k => exact h
  case unlink d q c c' hd hl hsub hshort =>
    rw [lookup_put]
    split
    · rfl
    · exact hsd
  case rmsub d q hd he =>
    rw [lookup_rmdir, if_neg]
    · exact hsd
    · rintro rfl
      cases j with
      | write k ms' => exact h
      | delete k =>
        have h : d = base ++ comps k := h
        subst h
        have := hd.length_le
        have h1 := hE.length k
        have h2 := hE.pos
        simp at this; omega
  case removed d hd => exact hsd
  case gone u hu he =>
    simp only [FS.isEmptyDir, Option.map_eq_none_iff] at he
    rw [he] at hsd; cases hsd
  case empty u hu he => exact he
  case rmdir u he =>
    obtain ⟨c, h1, _, _⟩ := isEmptyDir_true he
    have := hwf.prefix (List.dropLast_prefix u) (by rw [h1]; rfl)
    rw [lookup_rmdir, if_neg]
    · exact this
    · intro e
      cases j with
      | write k ms' => exact h
      | delete k =>
        obtain ⟨_, g2, _, _, g5⟩ := h
        have h1 := congrArg List.length e
        have h0 : u = [] := List.length_eq_zero_iff.1 (by simp at h1; omega)
        subst h0
        exact g5 (List.prefix_nil.1 g2).symm
  case rmdirRaise u he => exact he hsd

/-- First names differ: no common directory but `base` and its parents. -/
theorem no_common (hE : Lawful E comps) {k k' : K} (hh : (comps k).head? ≠ (comps k').head?) {q : Path}
    (h1 : q <+: base ++ comps k) (h2 : q <+: base ++ comps k') (h3 : base <+: q) : q = base := by
  obtain ⟨r, rfl⟩ := h3
  rw [List.prefix_append_right_inj] at h1 h2
  cases r with
  | nil => simp
  | cons x r =>
    obtain ⟨t, h1⟩ := h1
    obtain ⟨t', h2⟩ := h2
    exact absurd (by rw [← h1, ← h2]; rfl) hh

theorem sound_other (hE : Lawful E comps) {fs0 fs fs' : FS C} {j j' : Job K C} {p : Proc C}
    (h : Ok E comps base fs0 fs j p) (hsd : Sound E.names fs p) (he : Effect E comps base j' fs fs') (hk : j.key ≠ j'.key)
    (hh : j.IsDelete ∨ j'.IsDelete → (comps j.key).head? ≠ (comps j'.key).head?) : Sound E.names fs' p := by
  -- a directory leading to that of `j` is not removed
  have keep : ∀ q, q <+: base ++ comps j.key → (fs.lookup q).isSome → (fs'.lookup q).isSome := by
    intro q hq hs
    by_cases hb : base ++ comps j'.key <+: q
    · exact absurd (comps_prefix hE (hb.trans hq)).symm hk
    · rcases he.other q hb with e | ⟨g1, g2, g3 | g3⟩
      · rw [e]; exact hs
      · rw [g3.1] at hs; cases hs
      · obtain ⟨c, _, _, _, g4, g5, g6⟩ := g3
        exact absurd (no_common hE (hh (Or.inr g4)) hq g1 g5) g6
  cases j with
  | write k ms =>
    cases p <;> simp only [Ok] at h <;> simp only [Sound] at hsd ⊢
    case making todo d ms' =>
      obtain ⟨rfl, _⟩ := h
      obtain ⟨pre, h1, h2⟩ := hsd
      exact ⟨pre, h1, fun q hq => keep q (mem_takes (d := base ++ comps k) (by rw [h1]; exact List.mem_append_left _ hq)) (h2 q hq)⟩
  | delete k =>
    cases p <;> simp only [Ok] at h <;> simp only [Sound] at hsd ⊢
    case removing d =>
      subst h
      exact keep _ (List.dropLast_prefix _) hsd
    case looking u => exact keep u h.2.2.1 hsd
    case pruning u =>
      obtain ⟨g1, g2, g3, g4, g5⟩ := h
      have hd := hh (Or.inl trivial)
      have away : ¬ u <+: base ++ comps j'.key := fun hu => g5 (no_common hE hd g3 hu g2)
      have same : ∀ q, u <+: q → q.length ≤ u.length + 1 → fs'.lookup q = fs.lookup q := by
        intro q hq hlen
        by_cases hb : base ++ comps j'.key <+: q
        · exfalso
          have h1 := g3.length_le
          have h2 : u.length ≠ (base ++ comps k).length := fun e => g4 (g3.eq_of_length e)
          have h3 := hb.length_le
          have h4 := hE.length k
          have h5 := hE.length j'.key
          simp only [List.length_append] at h1 h2 h3
          have : base ++ comps j'.key = q := hb.eq_of_length (by simp only [List.length_append]; omega)
          rw [this] at away
          exact away hq
        · rcases he.other q hb with e | ⟨g, _⟩
          · exact e
          · exact absurd (hq.trans g) away
      obtain ⟨c, h1, h2, h3⟩ := isEmptyDir_true hsd
      unfold FS.isEmptyDir
      rw [same u List.prefix_rfl (by omega), h1]
      have h4 : fs'.children u = [] := by
        rw [isEmpty_children] at h3 ⊢
        intro x
        rw [same _ (List.prefix_append _ _) (by simp)]
        exact h3 x
      simp [h2, h4]

theorem sound_start (hE : Lawful E comps) {fs : FS C} (hwf : fs.WF) {j : Job K C}
    (hd : j.IsDelete → (fs.lookup (base ++ comps j.key)).isSome) : Sound E.names fs (Job.start base comps j) := by
  cases j with
  | write k ms => exact ⟨[], rfl, by simp⟩
  | delete k => exact hwf.prefix (List.dropLast_prefix _) (hd trivial)

theorem sound_reach (hE : Lawful E comps) {fs : FS C} (hwf : fs.WF) {jobs : List (Job K C)} (hsep : Separate base comps fs jobs)
    (hf : FirstNamesDiffer comps jobs) {s : Sys C} (h : Sys.Reach E.names E.empty base comps fs jobs s) :
    ∀ (i : Nat) p, s.procs[i]? = some p → Sound E.names s.fs p := by
  induction h with
  | start =>
    intro i p hp
    simp only [List.getElem?_map, Option.map_eq_some_iff] at hp
    obtain ⟨j, hj, rfl⟩ := hp
    exact sound_start hE hwf (hsep.2 j (List.mem_of_getElem? hj))
  | @step s s' hr hs ih =>
    have hok := SysOk.reach hE hwf hsep.1 hr
    obtain ⟨i, j, p, p', hj, hi, hps, hst, hok', he⟩ := hok.effect hE hs
    intro i' q hq
    rw [hps] at hq
    rcases get_set hq with ⟨rfl, rfl⟩ | ⟨hne, hq⟩
    · exact sound_own hE hok.wf (hok.ok i j p hj hi) (ih i p hi) hst
    · have hlt : i' < jobs.length := by rw [← hok.length]; exact (List.getElem?_eq_some_iff.1 hq).1
      have hj' : jobs[i']? = some jobs[i'] := List.getElem?_eq_getElem hlt
      refine sound_other hE (hok.ok i' _ q hj' hq) (ih i' q hq) he (key_ne hsep.1 hj' hj (Ne.symm hne)) ?_
      rintro (hd | hd)
      · exact hf i' i _ _ (Ne.symm hne) hj' hj hd
      · exact (hf i i' _ _ hne hj hj' hd).symm

/-! ### Ends -/

/-- Files and directories in `d`. -/
def content (names : C → List Str) (fs : FS C) (d : Path) : Nat :=
  ((fs.filter fun e => d.isPrefixOf e.1).map fun e => (names e.2).length + 1).sum

theorem content_remove {names : C → List Str} {d q : Path} {c : C} (hd : d <+: q) : ∀ {fs : FS C}, (fs.map Prod.fst).Nodup →
    fs.lookup q = some c → content names (fs.filter fun e => e.1 ≠ q) d + ((names c).length + 1) = content names fs d := by
  intro fs
  induction fs with
  | nil => intro _ h; cases h
  | cons e fs ih =>
    intro hn hl
    rw [List.map_cons, List.nodup_cons] at hn
    by_cases he : e.1 = q
    · have hno : fs.filter (fun e => decide (e.1 ≠ q)) = fs := by
        rw [List.filter_eq_self]
        intro x hx
        have : x.1 ≠ q := fun h => hn.1 (by rw [he, ← h]; exact List.mem_map_of_mem hx)
        simpa using this
      have hc : e.2 = c := by simpa [FS.lookup, he] using hl
      rw [List.filter_cons_of_neg (by simpa using he), hno]
      unfold content
      rw [List.filter_cons_of_pos (by rw [he]; simpa using hd), List.map_cons, List.sum_cons, hc]
      omega
    · have hl' : FS.lookup fs q = some c := by simpa [FS.lookup, he] using hl
      have := ih hn.2 hl'
      rw [List.filter_cons_of_pos (by simpa using he)]
      unfold content at this ⊢
      by_cases hp : d.isPrefixOf e.1
      · rw [List.filter_cons_of_pos (by simpa using hp), List.filter_cons_of_pos (by simpa using hp)]
        simp only [List.map_cons, List.sum_cons]
        omega
      · rw [List.filter_cons_of_neg (by simpa using hp), List.filter_cons_of_neg (by simpa using hp)]
        exact this

theorem content_put {names : C → List Str} {d q : Path} {c c' : C} (hd : d <+: q) {fs : FS C} (hn : (fs.map Prod.fst).Nodup)
    (hl : fs.lookup q = some c) (h : (names c').length < (names c).length) :
    content names (fs.put q c') d < content names fs d := by
  have h1 := content_remove (names := names) hd hn hl
  have h2 : content names (fs.put q c') d = content names (fs.filter fun e => e.1 ≠ q) d + ((names c').length + 1) := by
    unfold content FS.put
    rw [List.filter_append, List.map_append, List.sum_append]
    simp [hd]
  omega

theorem content_rmdir {names : C → List Str} {d q : Path} {c : C} (hd : d <+: q) {fs : FS C} (hn : (fs.map Prod.fst).Nodup)
    (hl : fs.lookup q = some c) : content names (fs.rmdir q) d < content names fs d := by
  have h1 := content_remove (names := names) hd hn hl
  unfold FS.rmdir
  omega

theorem content_away {names : C → List Str} {d q : Path} (hd : ¬ d <+: q) (fs : FS C) :
    content names (fs.filter fun e => e.1 ≠ q) d = content names fs d := by
  unfold content
  rw [List.filter_filter]
  congr 2
  apply List.filter_congr
  intro e _
  by_cases hp : d <+: e.1
  · have : e.1 ≠ q := fun h => hd (h ▸ hp)
    simp [hp, this]
  · simp [hp]

theorem content_put_away {names : C → List Str} {d q : Path} (hd : ¬ d <+: q) (fs : FS C) (c : C) :
    content names (fs.put q c) d = content names fs d := by
  rw [← content_away hd fs]
  unfold content FS.put
  rw [List.filter_append, List.map_append, List.sum_append]
  simp [hd]

/-- Steps an operation may still make. -/
def left (names : C → List Str) (fs : FS C) : Proc C → Nat
  | .making todo _ ms => todo.length + ms.length + 2
  | .writing _ ms => ms.length + 1
  | .removing d => content names fs d + 2 * d.length + 3
  | .looking u => 2 * u.length + 2
  | .pruning u => 2 * u.length + 1
  | .done => 0
  | .raised => 0

theorem left_own {fs0 fs fs' : FS C} {j : Job K C} {p p' : Proc C} (hwf : fs.WF) (h : Ok E comps base fs0 fs j p)
    (hs : Proc.Step E.names E.empty base fs p fs' p') : left E.names fs' p' < left E.names fs p := by
  cases hs <;> simp only [left, List.length_cons]
  case unlink d q c c' hd hl hsub hshort => have := content_put hd hwf.1 hl hshort; omega
  case rmsub d q hd he =>
    obtain ⟨c, h1, _, _⟩ := isEmptyDir_true he
    have := content_rmdir (names := E.names) hd hwf.1 h1
    omega
  case removed d hd => simp only [List.length_dropLast]; omega
  case rmdir u he =>
    cases j with
    | write k ms => exact absurd h id
    | delete k =>
      obtain ⟨_, g2, _, _, g5⟩ := h
      have : u.length ≠ 0 := fun e => by
        have := List.length_eq_zero_iff.1 e
        subst this
        exact g5 (List.prefix_nil.1 g2).symm
      simp only [List.length_dropLast]; omega
  all_goals omega

/-- Which directory a step changes. -/
theorem step_where {fs0 fs fs' : FS C} {j : Job K C} {p p' : Proc C} (h : Ok E comps base fs0 fs j p)
    (hs : Proc.Step E.names E.empty base fs p fs' p') :
    fs' = fs ∨ ∃ q, (q <+: base ++ comps j.key ∨ base ++ comps j.key <+: q) ∧ ((∃ c, fs' = fs.put q c) ∨ fs' = fs.rmdir q) := by
  cases j with
  | write k ms =>
    cases hs <;> simp only [Ok] at h
    case mkdir q todo d ms' hn hp =>
      obtain ⟨rfl, _, ⟨pre, h1, _⟩, _⟩ := h
      exact Or.inr ⟨q, Or.inl (mem_takes (d := base ++ comps k) (by rw [h1]; simp)), Or.inl ⟨_, rfl⟩⟩
    case files d c ms' hq =>
      obtain ⟨rfl, _⟩ := h
      exact Or.inr ⟨_, Or.inl List.prefix_rfl, Or.inl ⟨_, rfl⟩⟩
    all_goals exact Or.inl rfl
  | delete k =>
    cases hs <;> simp only [Ok] at h
    case unlink d q c c' hd hl hsub hshort => subst h; exact Or.inr ⟨q, Or.inr hd, Or.inl ⟨_, rfl⟩⟩
    case rmsub d q hd he => subst h; exact Or.inr ⟨q, Or.inr hd, Or.inr rfl⟩
    case rmdir u he => exact Or.inr ⟨u, Or.inl h.2.2.1, Or.inr rfl⟩
    all_goals exact Or.inl rfl

theorem same_length_prefix (hE : Lawful E comps) {k k' : K} {q : Path} (h1 : base ++ comps k <+: q) (h2 : base ++ comps k' <+: q) :
    k = k' := by
  have hl : (base ++ comps k).length = (base ++ comps k').length := by
    simp only [List.length_append, hE.length]
  have := List.prefix_of_prefix_length_le h1 h2 (Nat.le_of_eq hl)
  exact comps_prefix hE this

theorem left_other (hE : Lawful E comps) {fs0 fs fs' : FS C} {j j' : Job K C} {p p1 p1' : Proc C}
    (h : Ok E comps base fs0 fs j p) (h1 : Ok E comps base fs0 fs j' p1) (hs : Proc.Step E.names E.empty base fs p1 fs' p1')
    (hk : j.key ≠ j'.key) : left E.names fs' p = left E.names fs p := by
  cases p <;> simp only [left]
  case removing d =>
    cases j with
    | write k ms => exact absurd h id
    | delete k =>
      have h : d = base ++ comps k := h
      subst h
      rcases step_where h1 hs with e | ⟨q, hq, e⟩
      · rw [e]
      · have away : ¬ base ++ comps k <+: q := by
          intro hp
          rcases hq with hq | hq
          · exact hk (comps_prefix hE (hp.trans hq))
          · exact hk (same_length_prefix hE hp hq)
        rcases e with ⟨c, e⟩ | e
        · rw [e, content_put_away away]
        · rw [e]; unfold FS.rmdir; rw [content_away away]

def Sys.left (names : C → List Str) (s : Sys C) : Nat := (s.procs.map (Oups.Collection.left names s.fs)).sum

theorem sum_set {α : Type} {f g : α → Nat} : ∀ {l : List α} {i : Nat} {a a' : α}, l[i]? = some a → g a' < f a →
    (∀ i' x, i ≠ i' → l[i']? = some x → g x = f x) → ((l.set i a').map g).sum < (l.map f).sum := by
  intro l
  induction l with
  | nil => intro i a a' h; simp at h
  | cons x l ih =>
    intro i a a' h hlt hsame
    cases i with
    | zero =>
      simp only [List.getElem?_cons_zero, Option.some.injEq] at h
      subst h
      have : l.map g = l.map f := by
        apply List.map_congr_left
        intro y hy
        obtain ⟨n, hn⟩ := List.mem_iff_getElem?.1 hy
        exact hsame (n + 1) y (by omega) (by simpa using hn)
      simp only [List.set_cons_zero, List.map_cons, List.sum_cons, this]
      omega
    | succ i =>
      have h1 := ih (i := i) (a := a) (a' := a') (by simpa using h) hlt
        (fun i' y hi hy => hsame (i' + 1) y (by omega) (by simpa using hy))
      have h2 := hsame 0 x (by omega) (by simp)
      simp only [List.set_cons_succ, List.map_cons, List.sum_cons]
      omega

theorem left_step (hE : Lawful E comps) {fs0 : FS C} {jobs : List (Job K C)} (hn : (jobs.map Job.key).Nodup) {s s' : Sys C}
    (hok : SysOk E comps base fs0 jobs s) (hs : Sys.Step E.names E.empty base s s') : s'.left E.names < s.left E.names := by
  obtain ⟨i, j, p, p', hj, hi, hps, hst, hok', he⟩ := hok.effect hE hs
  unfold Sys.left
  rw [hps]
  refine sum_set hi (left_own hok.wf (hok.ok i j p hj hi) hst) ?_
  intro i' x hne hx
  have hlt : i' < jobs.length := by rw [← hok.length]; exact (List.getElem?_eq_some_iff.1 hx).1
  have hj' : jobs[i']? = some jobs[i'] := List.getElem?_eq_getElem hlt
  exact left_other hE (hok.ok i' _ x hj' hx) (hok.ok i j p hj hi) hst (key_ne hn hj' hj (Ne.symm hne))

theorem mem_le_sum : ∀ {l : List Nat} {n : Nat}, n ∈ l → n ≤ l.sum := by
  intro l
  induction l with
  | nil => intro n h; cases h
  | cons x l ih =>
    intro n h
    rw [List.sum_cons]
    rcases List.mem_cons.1 h with rfl | h
    · omega
    · have := ih h; omega

theorem deepest {fs : FS C} {d : Path} (h : (fs.lookup d).isSome) : ∃ q c, d <+: q ∧ fs.lookup q = some c ∧ fs.children q = [] := by
  have key : ∀ (n : Nat) (q : Path), d <+: q → (fs.lookup q).isSome → (fs.map fun e => e.1.length).sum + 1 ≤ q.length + n →
      ∃ q c, d <+: q ∧ fs.lookup q = some c ∧ fs.children q = [] := by
    intro n
    induction n with
    | zero =>
      intro q _ hs hlen
      exfalso
      rw [lookup_isSome_iff, List.mem_map] at hs
      obtain ⟨e, he, rfl⟩ := hs
      have : e.1.length ≤ (fs.map fun e => e.1.length).sum := mem_le_sum (List.mem_map.2 ⟨e, he, rfl⟩)
      omega
    | succ n ih =>
      intro q hq hs hlen
      cases hc : fs.children q with
      | nil =>
        obtain ⟨c, hc'⟩ := Option.isSome_iff_exists.1 hs
        exact ⟨q, c, hq, hc', hc⟩
      | cons x l =>
        have hx : x ∈ fs.children q := by rw [hc]; simp
        obtain ⟨⟨y, rfl⟩, h2⟩ := mem_children.1 hx
        exact ih (q ++ [y]) (hq.trans (List.prefix_append _ _)) h2 (by simp; omega)
  exact key ((fs.map fun e => e.1.length).sum + 1) d List.prefix_rfl h (by omega)

theorem can_step (hE : Lawful E comps) {fs0 fs : FS C} {j : Job K C} {p : Proc C} (h : Ok E comps base fs0 fs j p)
    (hf : ¬ p.Finished) : ∃ fs' p', Proc.Step E.names E.empty base fs p fs' p' := by
  cases p with
  | making todo d ms =>
    cases todo with
    | nil => exact ⟨_, _, .made⟩
    | cons q todo =>
      cases hq : fs.lookup q with
      | some c => exact ⟨_, _, .found (by rw [hq]; rfl)⟩
      | none =>
        by_cases hne : q = []
        · exact ⟨_, _, .mkdir hq (Or.inl hne)⟩
        · cases hp : fs.lookup q.dropLast with
          | some c => exact ⟨_, _, .mkdir hq (Or.inr (by rw [hp]; rfl))⟩
          | none => exact ⟨_, _, .mkdirRaise hq hne hp⟩
  | writing d ms =>
    cases ms with
    | nil => exact ⟨_, _, .written⟩
    | cons c ms =>
      cases hq : fs.lookup d with
      | some c => exact ⟨_, _, .files (by rw [hq]; rfl)⟩
      | none => exact ⟨_, _, .filesRaise hq⟩
  | removing d =>
    cases hd : fs.lookup d with
    | none => exact ⟨_, _, .removed hd⟩
    | some c0 =>
      obtain ⟨q, c, h1, h2, h3⟩ := deepest (fs := fs) (d := d) (by rw [hd]; rfl)
      by_cases hn : E.names c = []
      · exact ⟨_, _, .rmsub h1 (by simp [FS.isEmptyDir, h2, hn, h3])⟩
      · refine ⟨_, _, .unlink (c' := E.empty) h1 h2 ?_ ?_⟩
        · rw [hE.noFile]; exact List.nil_sublist _
        · rw [hE.noFile]; exact List.length_pos_iff.2 hn
  | looking u =>
    by_cases hu : u = base
    · subst hu; exact ⟨_, _, .top⟩
    · cases he : fs.isEmptyDir E.names u with
      | none => exact ⟨_, _, .gone hu he⟩
      | some b =>
        cases b with
        | false => exact ⟨_, _, .stop hu he⟩
        | true => exact ⟨_, _, .empty hu he⟩
  | pruning u =>
    by_cases he : fs.isEmptyDir E.names u = some true
    · exact ⟨_, _, .rmdir he⟩
    · exact ⟨_, _, .rmdirRaise he⟩
  | done => exact absurd trivial hf
  | raised => exact absurd trivial hf

/-! ### No empty directory left by deletions -/

/-- An empty directory on the way to one that is deleted is about to be looked at. -/
def Watched (E : Env K C W) (comps : K → List Str) (base : Path) (jobs : List (Job K C)) (s : Sys C) : Prop :=
  ∀ q, base <+: q → q ≠ base → (∃ j ∈ jobs, q <+: base ++ comps j.key ∧ q ≠ base ++ comps j.key) →
    s.fs.isEmptyDir E.names q = some true →
    ∃ (i : Nat) (p : Proc C), s.procs[i]? = some p ∧
      (p = .looking q ∨ p = .pruning q ∨ ∃ d, p = .removing d ∧ d.dropLast = q ∧ s.fs.lookup d = none)

theorem isEmptyDir_iff {names : C → List Str} {fs : FS C} {p : Path} :
    fs.isEmptyDir names p = some true ↔ ∃ c, fs.lookup p = some c ∧ names c = [] ∧ ∀ x, fs.lookup (p ++ [x]) = none := by
  constructor
  · intro h
    obtain ⟨c, h1, h2, h3⟩ := isEmptyDir_true h
    exact ⟨c, h1, h2, isEmpty_children.1 h3⟩
  · rintro ⟨c, h1, h2, h3⟩
    simp [FS.isEmptyDir, h1, h2, isEmpty_children.2 h3]

theorem watched_start {fs : FS C} (hwf : fs.WF) {jobs : List (Job K C)} (hsep : Separate base comps fs jobs)
    (hdel : ∀ j ∈ jobs, j.IsDelete) : Watched E comps base jobs ⟨fs, jobs.map (Job.start base comps)⟩ := by
  rintro q - - ⟨j, hj, hq, hne⟩ he
  exfalso
  obtain ⟨c, _, _, h3⟩ := isEmptyDir_iff.1 he
  obtain ⟨r, hr⟩ := hq
  cases r with
  | nil => exact hne (by simpa using hr)
  | cons x r =>
    have h1 := hsep.2 j hj (hdel j hj)
    have h2 := hwf.prefix (b := q ++ [x]) ⟨r, by simpa using hr⟩ h1
    have h3 : fs.lookup (q ++ [x]) = none := h3 x
    rw [h3] at h2; cases h2

theorem get_set_ne {α : Type} {l : List α} {i i' : Nat} {a x : α} (h : l[i']? = some x) (hne : i ≠ i') :
    (l.set i a)[i']? = some x := by rw [List.getElem?_set, if_neg hne]; exact h

theorem get_set_self {α : Type} {l : List α} {i : Nat} {a x : α} (h : l[i]? = some x) : (l.set i a)[i]? = some a := by
  rw [List.getElem?_set, if_pos rfl, if_pos (List.getElem?_eq_some_iff.1 h).1]

theorem watched_step (hE : Lawful E comps) {fs0 : FS C} {jobs : List (Job K C)} (hdel : ∀ j ∈ jobs, j.IsDelete) {s s' : Sys C}
    (hok : SysOk E comps base fs0 jobs s) (hw : Watched E comps base jobs s) (hs : Sys.Step E.names E.empty base s s') :
    Watched E comps base jobs s' := by
  obtain ⟨i, j, p, p', hj, hi, hps, hst, hok', he⟩ := hok.effect hE hs
  intro q hb hne hq hemp
  have hown := hok.ok i j p hj hi
  have hdj := hdel j (List.mem_of_getElem? hj)
  -- `q` is shorter than dataset directories
  have hlen : q.length < base.length + E.depth := by
    obtain ⟨j', _, h1, h2⟩ := hq
    have h3 := h1.length_le
    have h4 : q.length ≠ (base ++ comps j'.key).length := fun e => h2 (h1.eq_of_length e)
    have h5 := hE.length j'.key
    simp only [List.length_append] at h3 h4; omega
  -- if nothing changes for `q` and the one in charge goes on
  have go : s.fs.isEmptyDir E.names q = some true → (∀ d, s.fs.lookup d = none → s'.fs.lookup d = none) →
      (p ≠ .looking q ∧ p ≠ .pruning q ∧ ∀ d, p = .removing d → p' = .removing d ∨ (d.dropLast = q → p' = .looking q)) →
      ∃ (i : Nat) (p : Proc C), s'.procs[i]? = some p ∧
        (p = .looking q ∨ p = .pruning q ∨ ∃ d, p = .removing d ∧ d.dropLast = q ∧ s'.fs.lookup d = none) := by
    rintro h1 h2 ⟨h3, h4, h5⟩
    obtain ⟨i', p0, g1, g2⟩ := hw q hb hne hq h1
    by_cases hii : i = i'
    · subst hii
      rw [hi] at g1; cases g1
      rcases g2 with g2 | g2 | ⟨d, g2, g3, g4⟩
      · exact absurd g2 h3
      · exact absurd g2 h4
      · rcases h5 d g2 with h5 | h5
        · exact ⟨i, p', by rw [hps]; exact get_set_self hi, Or.inr (Or.inr ⟨d, h5, g3, h2 _ g4⟩)⟩
        · exact ⟨i, p', by rw [hps]; exact get_set_self hi, Or.inl (h5 g3)⟩
    · refine ⟨i', p0, by rw [hps]; exact get_set_ne g1 hii, ?_⟩
      rcases g2 with g2 | g2 | ⟨d, g2, g3, g4⟩
      · exact Or.inl g2
      · exact Or.inr (Or.inl g2)
      · exact Or.inr (Or.inr ⟨d, g2, g3, h2 _ g4⟩)
  cases j with
  | write k ms => exact absurd hdj id
  | delete k =>
    obtain ⟨c0, e1, e2, e3⟩ := isEmptyDir_iff.1 hemp
    generalize hfs' : s'.fs = fs' at hst e1 e3 hemp
    rw [hfs'] at go
    cases hst <;> simp only [Ok] at hown
    case unlink d q' c c' hd hl hsub hshort =>
      subst hown
      have hql : q' ≠ q := fun e => by
        have := hd.length_le
        have h5 := hE.length k
        simp only [List.length_append, e] at this; omega
      refine go (isEmptyDir_iff.2 ⟨c0, ?_, e2, fun x => ?_⟩) ?_ ⟨by simp, by simp, fun d h => Or.inl h⟩
      · rwa [lookup_put, if_neg (Ne.symm hql)] at e1
      · have := e3 x
        rw [lookup_put] at this
        split at this
        · cases this
        · exact this
      · intro d hdn
        rw [lookup_put, if_neg]
        · exact hdn
        · rintro rfl; rw [hl] at hdn; cases hdn
    case rmsub d q' hd hemp' =>
      subst hown
      have hql : q' ≠ q := fun e => by
        have := hd.length_le
        have h5 := hE.length k
        simp only [List.length_append, e] at this; omega
      rw [lookup_rmdir, if_neg (Ne.symm hql)] at e1
      by_cases hc : ∃ x, q' = q ++ [x]
      · obtain ⟨x, rfl⟩ := hc
        have hqd : base ++ comps k = q ++ [x] := hd.eq_of_length (by
          have := hd.length_le
          have h5 := hE.length k
          simp only [List.length_append, List.length_singleton] at this ⊢; omega)
        refine ⟨i, _, by rw [hps]; exact get_set_self hi, Or.inr (Or.inr ⟨_, rfl, by rw [hqd]; simp, ?_⟩)⟩
        rw [hqd, lookup_rmdir, if_pos rfl]
      · refine go (isEmptyDir_iff.2 ⟨c0, e1, e2, fun x => ?_⟩) ?_ ⟨by simp, by simp, fun d h => Or.inl h⟩
        · have := e3 x
          rwa [lookup_rmdir, if_neg (fun e => hc ⟨x, e.symm⟩)] at this
        · intro d hdn
          rw [lookup_rmdir]; split
          · rfl
          · exact hdn
    case removed d hd =>
      exact go hemp (fun _ h => h) ⟨by simp, by simp, fun d' h => by cases h; exact Or.inr (fun e => by rw [e])⟩
    case top => exact go hemp (fun _ h => h) ⟨by simpa using Ne.symm hne, by simp, fun d h => by cases h⟩
    case stop u hu he' =>
      refine go hemp (fun _ h => h) ⟨?_, by simp, fun d h => by cases h⟩
      intro h; cases h
      rw [hemp] at he'; cases he'
    case gone u hu he' =>
      refine go hemp (fun _ h => h) ⟨?_, by simp, fun d h => by cases h⟩
      intro h; cases h
      rw [hemp] at he'; cases he'
    case empty u hu he' =>
      by_cases huq : u = q
      · subst huq
        exact ⟨i, _, by rw [hps]; exact get_set_self hi, Or.inr (Or.inl rfl)⟩
      · exact go hemp (fun _ h => h) ⟨by simpa using huq, by simp, fun d h => by cases h⟩
    case rmdir u he' =>
      have huq : q ≠ u := by
        rintro rfl
        rw [lookup_rmdir, if_pos rfl] at e1; cases e1
      rw [lookup_rmdir, if_neg huq] at e1
      by_cases hc : ∃ x, u = q ++ [x]
      · obtain ⟨x, rfl⟩ := hc
        exact ⟨i, _, by rw [hps]; exact get_set_self hi, Or.inl (by simp)⟩
      · refine go (isEmptyDir_iff.2 ⟨c0, e1, e2, fun x => ?_⟩) ?_ ⟨by simp, by simpa using Ne.symm huq, fun d h => by cases h⟩
        · have := e3 x
          rwa [lookup_rmdir, if_neg (fun e => hc ⟨x, e.symm⟩)] at this
        · intro d hdn
          rw [lookup_rmdir]; split
          · rfl
          · exact hdn
    case rmdirRaise u he' =>
      refine go hemp (fun _ h => h) ⟨by simp, ?_, fun d h => by cases h⟩
      intro h; cases h
      exact he' hemp

theorem watched_reach (hE : Lawful E comps) {fs : FS C} (hwf : fs.WF) {jobs : List (Job K C)} (hsep : Separate base comps fs jobs)
    (hdel : ∀ j ∈ jobs, j.IsDelete) {s : Sys C} (h : Sys.Reach E.names E.empty base comps fs jobs s) :
    Watched E comps base jobs s := by
  induction h with
  | start => exact watched_start hwf hsep hdel
  | step hr hs ih => exact watched_step hE hdel (SysOk.reach hE hwf hsep.1 hr) ih hs

end
end Oups.Collection
