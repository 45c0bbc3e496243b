import Verif.Model.IndexerAttrs
/-
Model of indexer classes that derive from each other: what `toplevel` and `sublevel` (`/repo/oups/store/indexer.py` 277-369, 383-397)
make of a class which has a base class, itself decorated or not, which may have one, and so on. A class statement annotates fields,
some with a default value, and may be decorated.

Fields are collected by `dataclass` (331, 397): those of base classes, from the furthest one, then those annotated in the class, a
name already there keeping its place. The default value of a field annotated in the class is the attribute of that name, looked for
in the class and then in its base classes. A dataclass which is frozen and one which is not do not derive from each other.

Simplifications
* One base class at most for each class. Each class is decorated once at most (a second `toplevel` or `sublevel` raises `TypeError`,
  `__lt__` being already there).
* Attributes without annotation, `kw_only`, `field(...)` and default values refused by `dataclass` are left out. No field has the name
  of an attribute that decorated classes have (C74 says what happens then).
-/
namespace Oups.Inherit
open Oups.Indexer (Str AErr)

variable {A V : Type}

/-- `name: ann = dflt`. -/
structure AField (A V : Type) where
  name : String
  ann : A
  dflt : Option V := none
deriving DecidableEq, Repr

/-- Decorator of a class: `toplevel` with its separator, `sublevel`, `dataclass` without parameters, or none. -/
inductive Deco
  | toplevel (sep : Str)
  | sublevel
  | dataclass
  | bare
deriving DecidableEq, Repr

/-- A class statement. -/
structure Stmt (A V : Type) where
  own : List (AField A V)
  deco : Deco

/-- A class: what is found by `getattr` for `__dataclass_fields__`, for default values, for `frozen`, `_fields_sep` and `_depth`. -/
structure Made (A V : Type) where
  fields : Option (List (AField A V)) := none
  attrs : List (String × V) := []
  frozen : Bool := false
  sep : Option Str := none
  depth : Option Nat := none
deriving DecidableEq, Repr

/-- `fields[f.name] = f`, in a dict. -/
def dictSet (l : List (AField A V)) (f : AField A V) : List (AField A V) :=
  if l.any fun g => g.name == f.name then l.map fun g => if g.name == f.name then f else g
  else l ++ [f]

/-- Attributes written by a class statement. -/
def Stmt.attrs (c : Stmt A V) : List (String × V) := c.own.filterMap fun f => f.dflt.map fun v => (f.name, v)

/-- Fields of base classes, given from the furthest one. -/
def baseFields (bases : List (Made A V)) : List (AField A V) :=
  bases.foldl (fun acc b => (b.fields.getD []).foldl dictSet acc) []

/-- A field without default value after one with a default value. -/
def misordered : List (AField A V) → Bool
  | [] => false
  | f :: fs => (f.dflt.isSome && fs.any fun g => g.dflt.isNone) || misordered fs

/-- `dataclass`, for a class of which `attrs` are the attributes, its own and those of base classes. -/
def dataclass (bases : List (Made A V)) (own : List (AField A V)) (attrs : List (String × V)) (frozen : Bool) :
    Except AErr (List (AField A V)) :=
  let fs := (own.map fun f => { f with dflt := attrs.lookup f.name }).foldl dictSet (baseFields bases)
  if bases.any (fun b => b.fields.isSome && b.frozen != frozen) then .error .typeError
  else if misordered fs then .error .typeError
  else .ok fs

/-- `_get_depth` (229-240); `levels`: number of levels of an annotation which is a dataclass. -/
def getDepth (levels : A → Option Nat) (fs : List (AField A V)) : Except AErr Nat :=
  match fs.getLast? with
  | none => .error .indexError
  | some f => .ok ((levels f.ann).getD 0 + 1)

/-- A class statement, base classes being `bases`, from the furthest one. -/
def define (levels : A → Option Nat) (bases : List (Made A V)) (c : Stmt A V) : Except AErr (Made A V) :=
  let base := bases.getLast?.getD {}
  let attrs := c.attrs ++ base.attrs
  match c.deco with
  | .bare => .ok { base with attrs := attrs }
  | .dataclass =>
    match dataclass bases c.own attrs false with
    | .ok fs => .ok { base with fields := some fs, attrs := attrs, frozen := false }
    | .error e => .error e
  | .sublevel =>
    match dataclass bases c.own attrs true with
    | .ok fs => .ok { base with fields := some fs, attrs := attrs, frozen := true }
    | .error e => .error e
  | .toplevel sep =>
    match dataclass bases c.own attrs true with
    | .ok fs =>
      match getDepth levels fs with
      | .ok d => .ok { fields := some fs, attrs := attrs, frozen := true, sep := some sep, depth := some d }
      | .error e => .error e
    | .error e => .error e

/-- Class statements, each one deriving from the previous one. -/
def defineAll (levels : A → Option Nat) (bases : List (Made A V)) : List (Stmt A V) → Except AErr (List (Made A V))
  | [] => .ok bases
  | c :: cs =>
    match define levels bases c with
    | .ok m => defineAll levels (bases ++ [m]) cs
    | .error e => .error e

/-- The last class of a chain. -/
def chain (levels : A → Option Nat) (cs : List (Stmt A V)) : Except AErr (Made A V) :=
  match defineAll levels [] cs with
  | .ok ms => .ok (ms.getLast?.getD {})
  | .error e => .error e

end Oups.Inherit
