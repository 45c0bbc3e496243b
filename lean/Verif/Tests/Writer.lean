import Verif.Model.Writer
/-!
The tests of `/repo/tests/test_store/test_writer.py`, `test_router.py` and `test_collection.py` on `write`, run on the
model: same frames, same parameters, and the sizes of row groups and rows that the tests expect. Columns `a`, `b`, `c`
are 0, 1, 2.
-/
namespace Oups.Tests.Writer
open Oups.Writer

abbrev Row := List Int

/-- Columns up to `n`. -/
def table (n : Nat) : Table Row := ⟨List.range n, fun c r => r.getD c 0⟩

/-- Rows from columns. -/
def rows2 (a b : List Int) : List Row := (a.zip b).map fun x => [x.1, x.2]
def rows3 (a b c : List Int) : List Row := (a.zip (b.zip c)).map fun x => [x.1, x.2.1, x.2.2]
def rows1 (a : List Int) : List Row := a.map fun x => [x]

/-- `range(n)`. -/
def upTo (n : Nat) : List Int := (List.range n).map Int.ofNat

/-- `fp_write(dn, pdf, row_group_offsets=offsets)`. -/
def fpWrite (offsets : List Nat) (l : List Row) : List (RG Row) := numberFrom 0 (slices l offsets)

/-- Sizes of row groups, and rows. -/
def result (r : Except Err (List (RG Row))) : Except Err (List Nat × List Row) :=
  r.map fun rgs => (rgs.map fun g => g.rows.length, readRows rgs)

/-! test_init_and_append_pandas_std (27-43): the texts of column `b` are numbered. -/
example : result (write (table 2) { maxRg := some 2 } [] (rows2 (upTo 6) [10, 11, 12, 13, 14, 15])) =
    .ok ([2, 2, 2], rows2 (upTo 6) [10, 11, 12, 13, 14, 15]) := by decide

example : (result do
    let d ← write (table 2) { maxRg := some 2 } [] (rows2 (upTo 6) [10, 11, 12, 13, 14, 15])
    write (table 2) { maxRg := some 2 } d (rows2 (upTo 2) [16, 17])).map Prod.snd =
    .ok (rows2 (upTo 6 ++ upTo 2) [10, 11, 12, 13, 14, 15, 16, 17]) := by decide

/-! test_init_and_select_vaex (127-136) -/
example : result (write (table 2) {} [] (rows2 [4, 5] [14, 15])) = .ok ([2], rows2 [4, 5] [14, 15]) := by decide

/-! test_vaex_coalescing_first_rgs (139-164) -/
example : result (write (table 1) { maxRg := some 3, maxNirgs := some 2 } (fpWrite [0] (rows1 [0, 1])) (rows1 [20])) =
    .ok ([3], rows1 [0, 1, 20]) := by decide

/-! test_pandas_coalescing_simple_irgs (167-210) -/
example : ((fpWrite [0, 4, 5, 9] (rows1 (upTo 10))).map fun g => g.rows.length) = [4, 1, 4, 1] := by decide

example : result (write (table 1) { maxRg := some 4, maxNirgs := some 2 } (fpWrite [0, 4, 5, 9] (rows1 (upTo 10)))
    (rows1 [20])) = .ok ([4, 1, 4, 1, 1], rows1 (upTo 10 ++ [20])) := by decide

example : result (do
    let d ← write (table 1) { maxRg := some 4, maxNirgs := some 2 } (fpWrite [0, 4, 5, 9] (rows1 (upTo 10))) (rows1 [20])
    write (table 1) { maxRg := some 4, maxNirgs := some 2 } d (rows1 [20])) =
    .ok ([4, 1, 4, 3], rows1 (upTo 10 ++ [20, 20])) := by decide

/-! test_pandas_coalescing_simple_max_row_group_size (213-246) -/
example : result (write (table 1) { maxRg := some 4, maxNirgs := some 5 }
    (fpWrite [0, 4, 5, 9, 10, 11] (rows1 (upTo 12))) (rows1 [20])) = .ok ([4, 1, 4, 4], rows1 (upTo 12 ++ [20])) := by decide

/-! test_pandas_appending_data_with_drop_duplicates (249-274) -/
example : result (write (table 2) { maxRg := some 4, orderedOn := some (.col 0), dupOn := some (.one 0) }
    (fpWrite [0, 4, 5, 9, 10] (rows2 (upTo 11) ((upTo 11).map (· + 10)))) (rows2 [10, 20] [11, 31])) =
    .ok ([4, 1, 4, 1, 2], rows2 (upTo 11 ++ [20]) [10, 11, 12, 13, 14, 15, 16, 17, 18, 19, 11, 31]) := by decide

/-- Frames of the following tests. -/
def pdf1 : List Row := rows3 [0, 1, 2, 3, 3, 3, 4, 5] (upTo 8) [0, 0, 0, 0, 0, 0, 0, 0]
def pdf2 : List Row := rows3 [5, 5, 5, 5, 6, 6, 7, 8] [7, 7, 8, 9, 9, 9, 10, 10] [1, 2, 3, 4, 5, 6, 7, 8]

/-! test_pandas_appending_data_with_sharp_starts (277-317) -/
example : result (write (table 3) { maxRg := some 3, orderedOn := some (.col 0), dupOn := some (.one 1) }
    (fpWrite [0, 3, 6] pdf1) pdf2) =
    .ok ([3, 3, 1, 3, 2, 1], pdf1.take 7 ++ (pdf2.take 4).drop 1 ++ pdf2.drop 5) := by decide

/-! test_pandas_appending_duplicates_on_a_list (320-360) -/
example : result (write (table 3) { maxRg := some 3, orderedOn := some (.col 0), dupOn := some (.many [1]) }
    (fpWrite [0, 3, 6] pdf1) pdf2) =
    .ok ([3, 3, 1, 3, 2, 1], pdf1.take 7 ++ (pdf2.take 4).drop 1 ++ pdf2.drop 5) := by decide

/-! test_pandas_appending_span_several_rgs (363-403) -/
example : result (write (table 3) { maxRg := some 3, orderedOn := some (.col 0), dupOn := some (.one 1) }
    (fpWrite [0, 3, 6] pdf1)
    (rows3 [3, 5, 5, 5, 6, 6, 7, 8] [7, 7, 8, 9, 9, 9, 10, 10] [1, 2, 3, 4, 5, 6, 7, 8])) =
    .ok ([3, 5, 3, 2, 1], rows3 [0, 1, 2, 3, 3, 3, 3, 4, 5, 5, 5, 6, 7, 8] [0, 1, 2, 3, 4, 5, 7, 6, 7, 8, 9, 9, 10, 10]
      [0, 0, 0, 0, 0, 0, 1, 0, 2, 3, 4, 6, 7, 8]) := by decide

/-- Frame of the following tests. -/
def pdf3 : List Row := rows3 [0, 1, 3, 3, 5, 7, 7, 8, 9, 11, 12] (upTo 11) (List.replicate 11 0)

/-! test_pandas_inserting_data (406-450), test_vaex_inserting_data (453-498) -/
example : result (write (table 3) { maxRg := some 3, orderedOn := some (.col 0), dupOn := some (.one 1) }
    (fpWrite [0, 3, 6, 9] pdf3) (rows3 [3, 4, 5, 8] [7, 7, 4, 9] [1, 1, 1, 1])) =
    .ok ([2, 4, 1, 4, 1, 2], rows3 [0, 1, 3, 3, 3, 4, 5, 7, 7, 8, 8, 9, 11, 12]
      [0, 1, 2, 3, 7, 7, 4, 5, 6, 7, 9, 8, 9, 10] [0, 0, 0, 0, 1, 1, 1, 0, 0, 0, 1, 0, 0, 0]) := by decide

/-! test_vaex_no_duplicate_drop (501-546) -/
example : result (write (table 3) { maxRg := some 3, orderedOn := some (.col 0) }
    (fpWrite [0, 3, 6, 9] pdf3) (rows3 [3, 4, 5, 8] [7, 7, 4, 9] [1, 1, 1, 1])) =
    .ok ([2, 4, 2, 4, 1, 2], rows3 [0, 1, 3, 3, 3, 4, 5, 5, 7, 7, 8, 8, 9, 11, 12]
      [0, 1, 2, 3, 7, 7, 4, 4, 5, 6, 7, 9, 8, 9, 10] [0, 0, 0, 0, 1, 1, 0, 1, 0, 0, 0, 1, 0, 0, 0]) := by decide

def pdf4 : List Row := rows3 [6, 6, 7, 8] [9, 9, 10, 10] [5, 6, 7, 8]

/-! test_vaex_appending_as_if_inserting_no_coalesce (549-589) -/
example : result (write (table 3) { maxRg := some 3, orderedOn := some (.col 0), dupOn := some (.many [1]) }
    (fpWrite [0, 3, 6] pdf1) pdf4) = .ok ([3, 3, 2, 2, 2], pdf1 ++ pdf4) := by decide

/-! test_vaex_appending_as_if_inserting_with_coalesce (592-640) -/
example : result (write (table 3)
    { maxRg := some 3, orderedOn := some (.col 0), dupOn := some (.many [1]), maxNirgs := some 2 }
    (fpWrite [0, 3, 6] pdf1) pdf4) = .ok ([3, 3, 2, 3], pdf1 ++ pdf4.drop 1) := by decide

/-! test_vaex_duplicates_all_cols (643-681) -/
example : result (write (table 3) { maxRg := some 3, orderedOn := some (.col 0), dupOn := some (.many []) }
    (fpWrite [0, 3, 6] (rows3 [0, 1, 2, 3, 3, 3, 4, 5] (upTo 8) [0, 0, 0, 0, 0, 0, 0, 2]))
    (rows3 [3, 5, 5, 5, 6] [7, 7, 7, 7, 9] [1, 2, 3, 2, 5])) =
    .ok ([3, 5, 2, 1], rows3 [0, 1, 2, 3, 3, 3, 3, 4, 5, 5, 6] [0, 1, 2, 3, 4, 5, 7, 6, 7, 7, 9]
      [0, 0, 0, 0, 0, 0, 1, 0, 3, 2, 5]) := by decide

/-! test_pandas_drop_duplicates_wo_coalescing_irgs (684-732) -/
example : result (write (table 2)
    { maxRg := some 5, orderedOn := some (.col 0), dupOn := some (.one 0), maxNirgs := some 3 }
    (fpWrite [0, 5, 6] (rows2 (upTo 7) (List.replicate 7 0))) (rows2 [6] [1])) =
    .ok ([5, 1, 1], rows2 (upTo 7) [0, 0, 0, 0, 0, 0, 1]) := by decide

/-! test_exception_ordered_on_not_existing_pandas_vaex (735-753) -/
example : result (write (table 2) { orderedOn := some (.col 7) } (fpWrite [0, 3, 4] (rows2 (upTo 5) (List.replicate 5 0)))
    (rows2 (upTo 5) (List.replicate 5 0))) = .error .valueError := by decide

end Oups.Tests.Writer
