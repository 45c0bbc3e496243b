import Verif.Model.WriterDisk
/-! Specification vocabulary for interrupted writes. -/
namespace Oups.Writer

/-- Files of a dataset directory other than `_metadata`: parts, and parts under their temporary name. -/
inductive File
  | part (i : Nat)
  | tmp (i : Nat)

def Disk.file {R : Type} (d : Disk R) : File → Option (List R)
  | .part i => d.part i
  | .tmp i => d.tmp i

/-- The rows of each row group are in a file of the directory, different row groups in different files. -/
def Saved {R : Type} (d : Disk R) (rgs : List (RG R)) : Prop :=
  ∃ files : List File, files.Nodup ∧ List.Forall₂ (fun f g => d.file f = some g.rows) files rgs

end Oups.Writer
