/-
Model of `/repo/oups/store/writer.py`: `write_metadata` (lines 251-323) and `OUPS_METADATA`.

Simplifications
* A Python dict is a function to `Option`, or the list of its items when it is iterated (keys distinct).
* A value is `none` for Python's `None`, or `some v`, with `truthy v` its truth value.
* `OUPS_METADATA_KEY` in a `key_value_metadata` dict is a separate field (`oups`), of which the content is the
  dict itself: `loads` and `dumps` are inverse of each other.
* fastparquet `update_custom_metadata(pf, metadata)`: an item with value `None` is removed, any other is set.
-/
namespace Oups.Metadata

/-- A Python dict. -/
abbrev Dict (K V : Type) := K → Option (Option V)

/-- `key_value_metadata` of a parquet dataset. -/
structure FileMd (U S K V : Type) where
  user : U → Option S
  oups : Option (Dict K V)

/-- The `metadata` dict given to `write`: items, and value for `OUPS_METADATA_KEY` if any. -/
structure UserDict (U S K V : Type) where
  items : List (U × Option S)
  oups : Option (Dict K V)

variable {U S K V M : Type} [DecidableEq U] [DecidableEq K] [DecidableEq M]

def Dict.set (d : Dict K V) (k : K) (v : Option (Option V)) : Dict K V := fun k' => if k' = k then v else d k'

/-- Body of the loop `for key, value in new_oups_spec_md.items()` (writer.py 301-311). -/
def mergeItem (truthy : V → Bool) (existing : Dict K V) (item : K × Option V) : Dict K V :=
  match existing item.1, item.2 with
  | some _, none => existing.set item.1 none
  | some _, some v => existing.set item.1 (some (some v))
  | none, none => existing
  | none, some v => if truthy v then existing.set item.1 (some (some v)) else existing

/-- `new_oups_spec_md` as a dict. -/
def ofItems : List (K × Option V) → Dict K V
  | [] => fun _ => none
  | (k, v) :: r => (ofItems r).set k (some v)

/-- oups metadata to write (writer.py 295-313). -/
def newOups (truthy : V → Bool) (existing : Option (Dict K V)) (new : List (K × Option V)) : Dict K V :=
  match existing with
  | some ex => new.foldl (mergeItem truthy) ex
  | none => ofItems new

/-- `update_custom_metadata(pf, metadata)`. -/
def updateCustom (file : FileMd U S K V) (md : UserDict U S K V) : FileMd U S K V :=
  { user := md.items.foldl (fun f p => fun u => if u = p.1 then p.2 else f u) file.user
    oups := match md.oups with
      | some d => some d
      | none => file.oups }

structure Result (U S K V M : Type) where
  file : FileMd U S K V
  pending : M → Option (List (K × Option V))
  /-- The caller's dict, possibly modified. -/
  userDict : Option (UserDict U S K V)

/-- Truth value of a dict. -/
def UserDict.nonEmpty (d : UserDict U S K V) : Bool := !d.items.isEmpty || d.oups.isSome

/-- `write_metadata` (writer.py 251-323). `truthyKey` is the truth value of an `md_key`. -/
def writeMetadata (truthy : V → Bool) (truthyKey : M → Bool) (file : FileMd U S K V)
    (pending : M → Option (List (K × Option V))) (metadata : Option (UserDict U S K V)) (mdKey : Option M) :
    Result U S K V M :=
  match mdKey with
  | none =>
    { file := match metadata with
        | some d => if d.nonEmpty then updateCustom file d else file
        | none => file
      pending := pending, userDict := metadata }
  | some k =>
    match truthyKey k, pending k with
    | true, some new =>
      let merged := newOups truthy file.oups new
      let pending' := fun k' => if k' = k then none else pending k'
      match metadata with
      | some d =>
        if d.nonEmpty then
          let d' : UserDict U S K V := { d with oups := some merged }
          { file := updateCustom file d', pending := pending', userDict := some d' }
        else { file := updateCustom file { items := [], oups := some merged }, pending := pending', userDict := some d }
      | none => { file := updateCustom file { items := [], oups := some merged }, pending := pending', userDict := none }
    | _, _ =>
      { file := match metadata with
          | some d => if d.nonEmpty then updateCustom file d else file
          | none => file
        pending := pending, userDict := metadata }

/-! ### Several datasets -/

/-- Datasets of a store with their metadata, and pending oups metadata. -/
structure Store (U S K V M : Type) where
  files : M → FileMd U S K V
  pending : M → Option (List (K × Option V))

inductive Op (U S K V M : Type)
  /-- `OUPS_METADATA[key] = new`. -/
  | register (key : M) (new : List (K × Option V))
  /-- Write of the dataset `key`, with `md_key=key` if `useKey`, with a dict of its own. -/
  | write (key : M) (items : Option (List (U × Option S))) (useKey : Bool)

def Op.key : Op U S K V M → M
  | .register k _ => k
  | .write k _ _ => k

def stepOp (truthy : V → Bool) (truthyKey : M → Bool) (s : Store U S K V M) : Op U S K V M → Store U S K V M
  | .register k new => { s with pending := fun k' => if k' = k then some new else s.pending k' }
  | .write k items useKey =>
    let r := writeMetadata truthy truthyKey (s.files k) s.pending (items.map fun i => ⟨i, none⟩)
      (if useKey then some k else none)
    { files := fun k' => if k' = k then r.file else s.files k', pending := r.pending }

def runOps (truthy : V → Bool) (truthyKey : M → Bool) (s : Store U S K V M) (ops : List (Op U S K V M)) :
    Store U S K V M := ops.foldl (stepOp truthy truthyKey) s

end Oups.Metadata
