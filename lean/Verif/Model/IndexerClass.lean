import Verif.Model.Indexer
/-
Model of `from_path` and `from_str` of `/repo/oups/store/indexer.py` for any annotations of fields and for fields with
default values (in `Verif.Model.Indexer`, annotations are `int` or `str` and there is no default value).

Simplifications
* An annotation that is not a dataclass is what calling it on a string does (lines 203 and 213): a value or an exception.
  An annotation that cannot be called, such as a string (annotations under `from __future__ import annotations`) or
  `Optional[int]`, raises `TypeError`.
* `__init__` of levels is that made by `@dataclass` (no `__post_init__`, no field with `init=False` or `kw_only=True`).
-/
namespace Oups.Indexer

/-- Exceptions of an annotation called on a string. -/
inductive CErr
  | typeError
  | valueError
  | other
deriving DecidableEq, Repr

/-- Plain field of a dataclass: annotation, default value. -/
structure Fld where
  call : Str → Except CErr FVal
  dflt : Option FVal := none

/-- A dataclass: plain fields only, or plain fields followed by one which is annotated by a dataclass, with the default value
of this field. -/
inductive Cls
  | leaf (fs : List Fld)
  | node (fs : List Fld) (sub : Cls) (dflt : Option FVal)

/-- `__init__` of a dataclass from positional arguments: default values of fields left, `TypeError` if one has none or if there
are too many arguments. -/
def bindArgs : List (Option FVal) → List FVal → Except CErr (List FVal)
  | [], [] => .ok []
  | [], _ :: _ => .error .typeError
  | _ :: ds, a :: as =>
    match bindArgs ds as with
    | .ok vs => .ok (a :: vs)
    | .error e => .error e
  | none :: _, [] => .error .typeError
  | some d :: ds, [] =>
    match bindArgs ds [] with
    | .ok vs => .ok (d :: vs)
    | .error e => .error e

/-- The list comprehensions of lines 202-205 and 212-218. -/
def callFields : List Fld → List Str → Except CErr (List FVal)
  | f :: fs, s :: ss =>
    match f.call s with
    | .error e => .error e
    | .ok v =>
      match callFields fs ss with
      | .error e => .error e
      | .ok vs => .ok (v :: vs)
  | _, _ => .ok []

/-- `while types:` loop (206-219), levels given from the last but one, each with the default value of its last field; `ds`: default
values of fields of the level of which `args` are the arguments. -/
def classLoop : List (List Fld × Option FVal) → List Str → Nat → List FVal → List (Option FVal) → Except CErr FVal
  | [], _, _, args, ds =>
    match bindArgs ds args with
    | .ok vs => .ok (.dc vs)
    | .error e => .error e
  | (fs, d) :: rest, strs, levelLength, args, ds =>
    match callFields fs (sliceFrom fs.length (sliceTo levelLength strs)) with
    | .error e => .error e
    | .ok vs =>
      match bindArgs ds args with
      | .error e => .error e
      | .ok sub => classLoop rest (sliceTo levelLength strs) fs.length (vs ++ [.dc sub]) (fs.map Fld.dflt ++ [d])

/-- `_dataclass_fields_types_to_lists` (149-170). -/
def Cls.levels : Cls → List (List Fld × Option FVal) × List Fld
  | .leaf fs => ([], fs)
  | .node fs sub d => ((fs, d) :: sub.levels.1, sub.levels.2)

/-- Body of the `try` (201-220). -/
def readClass (cls : Cls) (strs : List Str) : Except CErr FVal :=
  match callFields cls.levels.2 (sliceFrom cls.levels.2.length strs) with
  | .error e => .error e
  | .ok args => classLoop cls.levels.1.reverse strs cls.levels.2.length args (cls.levels.2.map Fld.dflt)

/-- `_dataclass_instance_from_str` (173-226), also `from_path`: `TypeError` and `ValueError` give `None`, other exceptions go
through. -/
def fromClass (sep : Char) (cls : Cls) (s : Str) : Except CErr (Option FVal) :=
  match readClass cls (split (fun c => c == dirSep || c == sep) s) with
  | .ok v => .ok (some v)
  | .error .other => .error .other
  | .error _ => .ok none

/-- `_get_depth` (229-240). -/
def Cls.depth : Cls → Nat
  | .leaf _ => 1
  | .node _ sub _ => sub.depth + 1

/-- Annotation `int` or `str`, without default value. -/
def Fld.plain (t : PTy) : Fld where
  call s := match t.parse s with
    | some v => .ok v
    | none => .error .valueError

/-- Classes of `Verif.Model.Indexer`. -/
def Schema.cls : Schema → Cls
  | .leaf ts => .leaf (ts.map Fld.plain)
  | .node ts sub => .node (ts.map Fld.plain) sub.cls none

end Oups.Indexer
