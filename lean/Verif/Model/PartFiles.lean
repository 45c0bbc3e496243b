import Verif.Model.Indexer
import Verif.Model.Router
/-
Names of the files of a dataset, as `ParquetHandle.vdf` (/repo/oups/store/router.py 73-83) and `write`
(/repo/oups/store/writer.py 456) look at them.

Simplifications
* The directory is the list of its files, with their names and rows, in the order of the scan, which is any order. Files that are not
  row groups (`_metadata`, `_common_metadata`) have any rows.
* fastparquet names its files `part.N.parquet`.
* `int(str)` is that of `Indexer`: ASCII digits.
-/
namespace Oups.PartFiles
open Indexer Writer

/-- Name of the file of a row group. -/
def partName (n : Nat) : Str := "part.".toList ++ natStr n ++ ".parquet".toList

/-- `file.name[-7:] == "parquet"` (router.py 80). -/
def vdfKeeps (x : Str) : Bool := x.drop (x.length - 7) == "parquet".toList

/-- `x[5:-8]` (router.py 81). -/
def numberText (x : Str) : Str := (x.take (x.length - 8)).drop 5

/-- `file.endswith(".parquet")` (writer.py 456). -/
def endsWithParquet (x : Str) : Bool := ".parquet".toList.isSuffixOf x

/-- Keys of `files.sort` (router.py 81); `none` stands for `ValueError`. -/
def numbered {R : Type} (files : List (Str × List R)) : Option (List (Int × List R)) :=
  files.mapM fun f => (parseInt (numberText f.1)).map fun i => (i, f.2)

/-- `ParquetHandle.vdf` (router.py 73-83). -/
def vdf {R : Type} (files : List (Str × List R)) : Except Writer.Err (List R) :=
  match numbered (files.filter fun f => vdfKeeps f.1) with
  | none => .error .valueError
  | some [] => .error .noFiles
  | some l => .ok ((stableSort Prod.fst l).map Prod.snd).flatten

/-- Is there a dataset, for `write` (writer.py 456). -/
def found {R : Type} (files : List (Str × List R)) : Bool := files.any fun f => endsWithParquet f.1

end Oups.PartFiles
