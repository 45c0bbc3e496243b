import Verif.Model.Collection
/-! Several `ParquetSet` in use on the same file system: several instances for the same directory and class
(collection.py 110-130, 176-203, 236-279), or two of different classes or directories. Operations of different instances
follow each other, they do not overlap. -/
namespace Oups.Collection
open Oups.Indexer (Str)

section
variable {K C W : Type} [DecidableEq K]

/-- Instances of `ParquetSet` for one directory: `_keys` of each of them, in opening order, and the files. -/
structure Share (K C : Type) where
  insts : List (List K)
  fs : FS C

/-- What users do: a new instance, or an operation through the `i`-th one. -/
inductive Act (K W : Type)
  | opening
  | use (i : Nat) (op : Op K W)

/-- `ParquetSet(basepath, indexer)` (collection.py 110-130), and operations of one of the instances. -/
def Share.act (E : Env K C W) (base : Str) (s : Share K C) : Act K W → Share K C × Option Err
  | .opening => (⟨s.insts ++ [(PS.openAt E base s.fs).keys], s.fs⟩, none)
  | .use i op =>
    match s.insts[i]? with
    | none => (s, none)
    | some ks =>
      let r := PS.step E ⟨base, ks, s.fs⟩ op
      (⟨s.insts.set i r.1.keys, r.1.fs⟩, r.2)

/-- Actions one after the other, with what each of them raises. -/
def Share.run (E : Env K C W) (base : Str) (s : Share K C) : List (Act K W) → Share K C × List (Option Err)
  | [] => (s, [])
  | a :: as =>
    let r := s.act E base a
    let rs := Share.run E base r.1 as
    (rs.1, r.2 :: rs.2)

/-- The `i`-th instance. -/
def Share.inst (base : Str) (s : Share K C) (i : Nat) : Option (PS K C) := s.insts[i]?.map fun ks => ⟨base, ks, s.fs⟩

end

section
variable {K₁ K₂ C W₁ W₂ : Type} [DecidableEq K₁] [DecidableEq K₂]

/-- Two instances of `ParquetSet` with their own class and directory, on the same file system. -/
structure Duo (K₁ K₂ C : Type) where
  keys₁ : List K₁
  keys₂ : List K₂
  fs : FS C

def Duo.act (E₁ : Env K₁ C W₁) (E₂ : Env K₂ C W₂) (b₁ b₂ : Str) (s : Duo K₁ K₂ C) :
    Op K₁ W₁ ⊕ Op K₂ W₂ → Duo K₁ K₂ C × Option Err
  | .inl op =>
    let r := PS.step E₁ ⟨b₁, s.keys₁, s.fs⟩ op
    (⟨r.1.keys, s.keys₂, r.1.fs⟩, r.2)
  | .inr op =>
    let r := PS.step E₂ ⟨b₂, s.keys₂, s.fs⟩ op
    (⟨s.keys₁, r.1.keys, r.1.fs⟩, r.2)

def Duo.run (E₁ : Env K₁ C W₁) (E₂ : Env K₂ C W₂) (b₁ b₂ : Str) (s : Duo K₁ K₂ C)
    (ops : List (Op K₁ W₁ ⊕ Op K₂ W₂)) : Duo K₁ K₂ C := ops.foldl (fun s op => (s.act E₁ E₂ b₁ b₂ op).1) s

/-- Both opened on the same files. -/
def Duo.openAt (E₁ : Env K₁ C W₁) (E₂ : Env K₂ C W₂) (b₁ b₂ : Str) (fs : FS C) : Duo K₁ K₂ C :=
  ⟨(PS.openAt E₁ b₁ fs).keys, (PS.openAt E₂ b₂ fs).keys, fs⟩

end
end Oups.Collection
