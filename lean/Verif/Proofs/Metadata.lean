import Verif.Model.Metadata
import Mathlib.Data.List.Basic
import Mathlib.Tactic.Common
set_option linter.unusedSimpArgs false
namespace Oups.Metadata
variable {U S K V M : Type} [DecidableEq U] [DecidableEq K] [DecidableEq M]

theorem mergeItem_other (truthy : V → Bool) (ex : Dict K V) (i : K × Option V) {k : K} (h : k ≠ i.1) :
    mergeItem truthy ex i k = ex k := by
  obtain ⟨a, v⟩ := i
  simp only at h
  simp only [mergeItem]
  cases ex a <;> cases v <;> simp only
  · split
    · simp [Dict.set, h]
    · rfl
  · simp [Dict.set, h]
  · simp [Dict.set, h]

theorem fold_other (truthy : V → Bool) (ex : Dict K V) (new : List (K × Option V)) {k : K}
    (h : k ∉ new.map Prod.fst) : new.foldl (mergeItem truthy) ex k = ex k := by
  induction new generalizing ex with
  | nil => rfl
  | cons i new ih =>
    rw [List.map_cons, List.mem_cons, not_or] at h
    rw [List.foldl_cons, ih _ h.2, mergeItem_other _ _ _ h.1]

theorem fold_mem (truthy : V → Bool) (ex : Dict K V) (new : List (K × Option V)) (hn : (new.map Prod.fst).Nodup)
    {k : K} {v : Option V} (h : (k, v) ∈ new) :
    new.foldl (mergeItem truthy) ex k = mergeItem truthy ex (k, v) k := by
  induction new generalizing ex with
  | nil => simp at h
  | cons i new ih =>
    rw [List.map_cons, List.nodup_cons] at hn
    rcases List.mem_cons.1 h with rfl | h
    · rw [List.foldl_cons, fold_other _ _ _ hn.1]
    · rw [List.foldl_cons, ih _ hn.2 h]
      have hne : k ≠ i.1 := by
        rintro rfl
        exact hn.1 (List.mem_map.2 ⟨_, h, rfl⟩)
      have he := mergeItem_other truthy ex i hne
      generalize mergeItem truthy ex i = ex' at he
      simp only [mergeItem, he]
      cases hk : ex k <;> cases v <;> simp only
      · rw [he]
      · split
        · simp [Dict.set]
        · exact he
      · simp [Dict.set]
      · simp [Dict.set]

theorem stepOp_other (truthy : V → Bool) (tk : M → Bool) (s : Store U S K V M) (op : Op U S K V M) {k : M}
    (h : op.key ≠ k) :
    (stepOp truthy tk s op).files k = s.files k ∧ (stepOp truthy tk s op).pending k = s.pending k := by
  cases op with
  | register k' new => simp [stepOp, Op.key, Ne.symm h] at *; intro h'; exact absurd h'.symm h
  | write k' items useKey =>
    have h' : k ≠ k' := fun e => h e.symm
    simp only [stepOp, if_neg h', true_and]
    cases useKey with
    | false => simp [writeMetadata]
    | true =>
      simp only [if_true, writeMetadata]
      split
      · cases items with
        | none => simp [h']
        | some i => simp only [Option.map_some]; split <;> simp [h']
      · rfl

theorem stepOp_same (truthy : V → Bool) (tk : M → Bool) (s s' : Store U S K V M) (op : Op U S K V M) {k : M}
    (h : op.key = k) (hf : s.files k = s'.files k) (hp : s.pending k = s'.pending k) :
    (stepOp truthy tk s op).files k = (stepOp truthy tk s' op).files k ∧
    (stepOp truthy tk s op).pending k = (stepOp truthy tk s' op).pending k := by
  cases op with
  | register k' new => simp only [Op.key] at h; subst h; simp [stepOp, hf]
  | write k' items useKey =>
    simp only [Op.key] at h; subst h
    cases useKey with
    | false => simp [stepOp, writeMetadata, hf, hp]
    | true =>
      simp only [stepOp, if_true, writeMetadata, hf, ← hp]
      cases tk k' <;> cases hpk : s.pending k' <;> simp only [hpk, true_and]
      · rw [← hp, hpk]
      · rw [← hp, hpk]
      · rw [← hp, hpk]
      · cases items with
        | none => simp
        | some i => simp only [Option.map_some]; split <;> simp

end Oups.Metadata
