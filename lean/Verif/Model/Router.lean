import Verif.Model.WriterDisk
/-
Model of `/repo/oups/store/router.py`: `ParquetHandle`.

Simplification: the part files of the directory are given by the list of their numbers and rows, in the order of
the directory scan, which is any order.
-/
namespace Oups.Writer

/-- `ParquetHandle.pdf` (router.py 66-71): row groups in the order of the metadata. -/
def pdfRows {R : Type} (rgs : List (RG R)) : List R := readRows rgs

/-- `ParquetHandle.vdf` (router.py 73-83): files of the directory, sorted by number. -/
def vdfRows {R : Type} (scanned : List (RG R)) : List R :=
  readRows (stableSort (fun g => (g.id : Int)) scanned)

/-- `ParquetHandle.min_max` (router.py 85-101); `none` if there is no row group (`min([])` raises). -/
def minMax {R : Type} (T : Table R) (c : Col) (rgs : List (RG R)) : Option (Int × Int) :=
  match (rgs.filterMap (rgMin T c)).min?, (rgs.filterMap (rgMax T c)).max? with
  | some a, some b => some (a, b)
  | _, _ => none

end Oups.Writer
