import Verif.Spec.Collection
import Verif.Model.StoreRace
/-! Vocabulary for operations that overlap in time. -/
namespace Oups.Collection
open Oups.Indexer (Str)

def Job.key {K C : Type} : Job K C → K
  | .write k _ => k
  | .delete k => k

def Job.IsDelete {K C : Type} : Job K C → Prop
  | .write _ _ => False
  | .delete _ => True

/-- Operations at different keys; those deleted have a directory. -/
def Separate {K C : Type} (base : Path) (comps : K → List Str) (fs : FS C) (jobs : List (Job K C)) : Prop :=
  (jobs.map Job.key).Nodup ∧ ∀ j ∈ jobs, j.IsDelete → (fs.lookup (base ++ comps j.key)).isSome

/-- A key deleted has another first name than the other keys concerned. -/
def FirstNamesDiffer {K C : Type} (comps : K → List Str) (jobs : List (Job K C)) : Prop :=
  ∀ (i j : Nat) (a b : Job K C), i ≠ j → jobs[i]? = some a → jobs[j]? = some b → a.IsDelete → (comps a.key).head? ≠ (comps b.key).head?

def Proc.Finished {C : Type} : Proc C → Prop
  | .done => True
  | .raised => True
  | _ => False

/-- The datasets once all is done, each operation having concerned its key only. -/
def Outcome {K C : Type} (base : Path) (comps : K → List Str) (fs : FS C) (jobs : List (Job K C)) (k : K) (r : Option C) : Prop :=
  (∀ ms, Job.write k ms ∈ jobs → r = ms.getLast?) ∧ (Job.delete k ∈ jobs → r = none) ∧
  ((∀ j ∈ jobs, j.key ≠ k) → r = fs.lookup (base ++ comps k))

/-- `n` steps. -/
inductive Sys.Run {C : Type} (names : C → List Str) (empty : C) (base : Path) : Nat → Sys C → Sys C → Prop
  | nil {s} : Run names empty base 0 s s
  | cons {n s s1 s'} : Sys.Step names empty base s s1 → Run names empty base n s1 s' → Run names empty base (n + 1) s s'

end Oups.Collection
