import Verif.Model.Aggregate
/-
Model of `/repo/oups/aggstream/jcumsegagg.py` with the arrays that its functions modify: `jmax`, `jmin` and `jsum` accumulate in place, in
`initial` or in the first row of `ar` (113-118, 159-164, 205-210), and `jcsagg` writes into `chunk_res` (396-401). Two-dimensional arrays
are lists of rows.

* `chunk[:, cols_data]` and `chunk_res[cols_res]` (397-399) are copies, since `cols_data` and `cols_res` are arrays of integers (numpy,
  numba); `view := true` is what it would be if they were views.
* `chunk` (378) is a view of `data`.
-/
namespace Oups.Agg

section
variable {V : Type}

/-- Arrays given to an aggregation function. -/
structure Args (V : Type) where
  ar : List (List V)
  initial : List V
  deriving DecidableEq, Repr

/-- The array `res` stands for. -/
inductive Loc
  | init
  | row0
  deriving DecidableEq, Repr

/-- `res`. -/
def Args.read (a : Args V) : Loc → List V
  | .init => a.initial
  | .row0 => a.ar.headD []

/-- `res[i] = v`. -/
def Args.write (a : Args V) (i : Nat) (v : V) : Loc → Args V
  | .init => { a with initial := a.initial.set i v }
  | .row0 => { a with ar := a.ar.modifyHead (·.set i v) }

/-- One column of row `j`: `if val > res[i]: res[i] = val` (121-123), or one element of `res += row` (212). `f` is what is written, if
anything. -/
def cellStep (z : V) (f : V → V → Option V) (loc : Loc) (j : Nat) (a : Args V) (i : Nat) : Args V :=
  ((f ((a.read loc).getD i z) ((a.ar.getD j []).getD i z)).map fun v => a.write i v loc).getD a

/-- One row. -/
def rowStep (z : V) (f : V → V → Option V) (loc : Loc) (a : Args V) (j : Nat) : Args V :=
  (List.range (a.ar.getD j []).length).foldl (cellStep z f loc j) a

variable (O : Ops V)

/-- `jmax`, `jmin`, `jsum` (111-128, 157-174, 203-218): the arrays after the call, and what is returned. `w` is `ar.shape[1]`. -/
def jfoldMem (f : V → V → Option V) (w : Nat) (a : Args V) (useInit : Bool) : Args V × List V :=
  let n := a.ar.length
  if 0 < n then
    let loc := if useInit then Loc.init else Loc.row0
    let k := if useInit then 0 else 1
    let a' := if 1 < n || k == 0 then ((List.range n).drop k).foldl (rowStep O.zero f loc) a else a
    (a', a'.read loc)
  else (a, if useInit then a.initial else List.replicate w O.zero)

/-- `AGG_FUNCS`. -/
def jaggMem : Fn → Nat → Args V → Bool → Args V × List V
  | .first, w, a, useInit =>
    (a, if useInit then a.initial else if 0 < a.ar.length then a.ar.headD [] else List.replicate w O.zero)
  | .last, w, a, useInit =>
    (a, if 0 < a.ar.length then a.ar.getLastD [] else if useInit then a.initial else List.replicate w O.zero)
  | .max, w, a, useInit => jfoldMem O (fun res v => if O.lt res v then some v else none) w a useInit
  | .min, w, a, useInit => jfoldMem O (fun res v => if O.lt v res then some v else none) w a useInit
  | .sum, w, a, useInit => jfoldMem O (fun res v => some (O.add res v)) w a useInit

/-- Arrays of `jcsagg`. -/
structure Mem (V : Type) where
  data : List (List V)
  res : List V
  deriving DecidableEq, Repr

/-- `l[idx] = vals`. -/
def putAt (l : List V) (idx : List Nat) (vals : List V) : List V := (idx.zip vals).foldl (fun acc p => acc.set p.1 p.2) l

/-- `chunk_res[cols_res] = agg_func(chunk[:, cols_data], chunk_res[cols_res], preserve_res)` (396-401), `chunk` being the rows from
`lo` to `hi` of `data`. -/
def applyMem (view : Bool) (lo hi : Nat) (preserve : Bool) (m : Mem V) (agg : Fn × List Nat × List Nat) : Mem V :=
  let chunk := (m.data.drop lo).take (hi - lo)
  let a : Args V := ⟨chunk.map fun row => agg.2.1.map fun c => row.getD c O.zero, agg.2.2.map fun c => m.res.getD c O.zero⟩
  let r := jaggMem O agg.1 agg.2.1.length a preserve
  let m := if view then
      ({ data := m.data.take lo ++ (chunk.zip r.1.ar).map (fun p => putAt p.1 agg.2.1 p.2) ++ m.data.drop (lo + chunk.length)
         res := putAt m.res agg.2.2 r.1.initial } : Mem V)
    else m
  { m with res := putAt m.res agg.2.2 r.2 }

/-- Loop over `aggs` (383-401). -/
def groupMem (view : Bool) (g : Group) (lo hi : Nat) (preserve : Bool) (m : Mem V) : Mem V :=
  g.aggs.foldl (applyMem O view lo hi preserve) m

/-- Local variables of `jcsagg`. -/
structure MSt (V : Type) where
  binStart : Int
  chunkStart : Nat
  preserve : Bool
  mem : Mem V

/-- Body of the loop (366-416). -/
def mstep (view : Bool) (g : Group) (st : MSt V) (isUpdate : Bool) (next : Nat) : Option (List V) × MSt V :=
  if st.binStart = (next : Int) then
    (none, { st with chunkStart := next, preserve := if isUpdate then st.preserve else false })
  else
    let chunk := (st.mem.data.drop st.chunkStart).take (next - st.chunkStart)
    let mem := if chunk.isEmpty then st.mem else groupMem O view g st.chunkStart next st.preserve st.mem
    (some mem.res,
      if isUpdate then { st with chunkStart := next, preserve := true, mem := mem }
      else { binStart := next, chunkStart := next, preserve := false, mem := mem })

def mloop (view : Bool) (g : Group) (st : MSt V) : List (Bool × Nat) → List (Bool × Option (List V)) × Mem V
  | [] => ([], st.mem)
  | (isBin, next) :: es =>
    let (v, st') := mstep O view g st (!isBin) next
    let (vs, m) := mloop view g st' es
    ((isBin, v) :: vs, m)

/-- `jcsagg` (231-416): rows of `bin_res`, rows of `snap_res`, and the arrays `data` and `chunk_res` after the call. -/
def jcsaggMem (view : Bool) (g : Group) (m : Mem V) (starts binIndices : List Nat) (someSnaps preserve : Bool) :
    List (Option (List V)) × List (Option (List V)) × Mem V :=
  let es := if someSnaps then classify 0 binIndices starts else starts.map fun s => (true, s)
  let (rs, m) := mloop O view g ⟨if preserve then -1 else 0, 0, preserve, m⟩ es
  ((rs.filter (fun r => r.1)).map Prod.snd, (rs.filter (fun r => !r.1)).map Prod.snd, m)

end

end Oups.Agg
