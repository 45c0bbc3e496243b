import Verif.Model.IndexerSep
/-
Model of what the decorator `toplevel` puts on a class (`/repo/oups/store/indexer.py` 257-369), of the call of a decorated
class with positional and keyword arguments (338-343), of `_reduce` (243-254), of `is_toplevel` (372-380), and of the checks
that `ParquetSet` makes with it (`/repo/oups/store/collection.py` 124-125 and 195). Fields have names, which can be those
of attributes used by the package.

Attribute access is that of Python: a property of the class, then values kept by the instance, then other attributes of the
class.

Simplifications
* The class has no base class, no attribute other than its fields, no field with `init=False` or `kw_only=True`, and default
  values are hashable. Names of fields do not begin with two underscores.
* Truth value of a Python value: a function, given as argument.
* A separator which is not of type `str` raises `TypeError` when looked for in a string. (An instance of a subclass of `str` does
  not, but is then refused as being neither an `int` nor a `str`.)
-/
namespace Oups.Indexer

/-- Exceptions. -/
inductive AErr
  | typeError
  | valueError
  | indexError
  | attributeError
deriving DecidableEq, Repr

def AErr.of : Err → AErr
  | .typeError => .typeError
  | .valueError => .valueError
  | .indexError => .indexError

/-- An annotated field, `name: type = dflt`. -/
structure NamedField where
  name : String
  dflt : Option FVal := none

/-- A class as written, and `fields_sep` given to the decorator. -/
structure ClassDef where
  fields : List NamedField
  sep : Str

/-- A decorated class: `fields(cls)`, `cls._fields_sep`. -/
structure TopCls where
  fields : List NamedField
  sep : Str

/-- Default value written for the field `name`. -/
def ClassDef.written (c : ClassDef) (name : String) : Option FVal :=
  match c.fields.find? fun f => f.name == name with
  | some f => f.dflt
  | none => none

/-- `getattr(cls, name, MISSING)`, from which `dataclass` takes the default value of a field (331): `fields_sep` and `depth` are
properties of the metaclass (262-274), reading `_fields_sep` and `_depth`, which are not yet set (349-350). -/
def ClassDef.default (c : ClassDef) (f : NamedField) : Option FVal :=
  if f.name = "fields_sep" then c.written "_fields_sep"
  else if f.name = "depth" then c.written "_depth"
  else f.dflt

/-- A field without default value after one with a default value, which `dataclass` refuses. -/
def misordered : List NamedField → Bool
  | [] => false
  | f :: fs => (f.dflt.isSome && fs.any fun g => g.dflt.isNone) || misordered fs

/-- `tweak` (319-363); `_get_depth` (350, 238) takes the last of fields. -/
def ClassDef.decorate (c : ClassDef) : Except AErr TopCls :=
  let fs := c.fields.map fun f => { f with dflt := c.default f }
  if misordered fs then .error .typeError
  else if fs.isEmpty then .error .indexError
  else .ok ⟨fs, c.sep⟩

/-- Properties without setter of a decorated class (326, 354). -/
def isReadOnly (name : String) : Bool := name == "fields_sep" || name == "depth" || name == "to_path"

/-- An instance: its `__dict__`. -/
abbrev Inst := List (String × FVal)

/-- Arguments of the `__init__` made by `dataclass`, taken in order of fields. -/
def bindFields : List NamedField → List FVal → List (String × FVal) → Except AErr (List (String × FVal))
  | [], [], _ => .ok []
  | [], _ :: _, _ => .error .typeError
  | f :: fs, a :: as, kws =>
    match kws.lookup f.name with
    | some _ => .error .typeError
    | none =>
      match bindFields fs as kws with
      | .ok vs => .ok ((f.name, a) :: vs)
      | .error e => .error e
  | f :: fs, [], kws =>
    match kws.lookup f.name with
    | some v =>
      match bindFields fs [] kws with
      | .ok vs => .ok ((f.name, v) :: vs)
      | .error e => .error e
    | none =>
      match f.dflt with
      | none => .error .typeError
      | some d =>
        match bindFields fs [] kws with
        | .ok vs => .ok ((f.name, d) :: vs)
        | .error e => .error e

/-- Body of the `__init__` made by `dataclass` with `frozen=True`: `object.__setattr__` of each field. -/
def setFields : List (String × FVal) → Except AErr Inst
  | [] => .ok []
  | (n, v) :: rest =>
    if isReadOnly n then .error .attributeError
    else match setFields rest with
      | .ok i => .ok ((n, v) :: i)
      | .error e => .error e

/-- `index_class_init(self, *args, **kws)` (340). -/
def TopCls.dataInit (c : TopCls) (args : List FVal) (kws : List (String × FVal)) : Except AErr Inst :=
  if kws.all fun kw => c.fields.any fun f => f.name == kw.1 then
    match bindFields c.fields args kws with
    | .ok vs => setFields vs
    | .error e => .error e
  else .error .typeError

/-- `self.fields_sep` (326, 262-267). -/
def TopCls.instSep (c : TopCls) (i : Inst) : FVal :=
  match i.lookup "_fields_sep" with
  | some v => v
  | none => .str c.sep

/-- Values of `_dataclass_instance_to_dict` (37). -/
def TopCls.values (c : TopCls) (i : Inst) : List FVal := c.fields.filterMap fun f => i.lookup f.name

/-- `_validate_toplevel_instance` (65-110). -/
def TopCls.validate (c : TopCls) (i : Inst) : Except AErr Unit :=
  match c.instSep i with
  | .str s =>
    match validateS s (c.values i) with
    | .ok _ => .ok ()
    | .error e => .error (AErr.of e)
  | _ => if (c.values i).isEmpty then .ok () else .error .typeError

/-- Truth value of the argument `check` (338, 341). -/
def checkFlag (truth : FVal → Bool) (kws : List (String × FVal)) : Bool :=
  match kws.lookup "check" with
  | some v => truth v
  | none => true

/-- `__init__(self, *args, check=True, **kws)` (338-343). -/
def TopCls.call (truth : FVal → Bool) (c : TopCls) (args : List FVal) (kws : List (String × FVal)) : Except AErr Inst :=
  if (kws.lookup "self").isSome then .error .typeError
  else
    match c.dataInit args (kws.filter fun kw => kw.1 != "check") with
    | .error e => .error e
    | .ok i =>
      if checkFlag truth kws then
        match c.validate i with
        | .ok _ => .ok i
        | .error e => .error e
      else .ok i

/-- `obj.name` for the name of a field or of a method which is not a property: the value, if one is kept by the instance. -/
def Inst.attr (i : Inst) (name : String) : Option FVal := i.lookup name

/-- What `obj.from_str` is: the class method (358), or the value of a field. -/
inductive Callee
  | method
  | value (v : FVal)

/-- `_reduce` (243-254). -/
def TopCls.reduce (c : TopCls) (i : Inst) : Except AErr (Callee × Str) :=
  match c.instSep i with
  | .str s =>
    match toStrS s false (c.values i) with
    | .ok t =>
      match i.attr "from_str" with
      | some v => .ok (.value v, t)
      | none => .ok (.method, t)
    | .error e => .error (AErr.of e)
  | _ => .error .attributeError

/-! ### `is_toplevel` -/

/-- What can be given as indexer: a decorated class, an instance of one, anything else, of which `hasSep`, `callable`, `named` and
`isClass` tell if it has an attribute `fields_sep`, if `from_path` can be called, if it has an attribute `__name__`, if it is a
class. -/
inductive PyObj
  | cls (c : TopCls)
  | inst (c : TopCls) (i : Inst)
  | other (hasSep callable named isClass : Bool)

/-- `is_toplevel` (372-380). -/
def isToplevel : PyObj → Bool
  | .cls _ => true
  | .inst _ i =>
    match i.attr "from_path" with
    | some _ => false
    | none => true
  | .other hasSep callable _ _ => hasSep && callable

/-- `ParquetSet.__init__` (collection.py 124-125). -/
def openSet (indexer : PyObj) : Except AErr Unit :=
  if isToplevel indexer then .ok ()
  else match indexer with
    | .cls _ => .error .typeError
    | .inst _ _ => .error .attributeError
    | .other _ _ named _ => if named then .error .typeError else .error .attributeError

/-- `isinstance(key, self._indexer)` (collection.py 195), for a key being an instance of the indexer or not. -/
def keyAccepted (indexer : PyObj) (isInstance : Bool) : Except AErr Unit :=
  let isClass := match indexer with
    | .cls _ => true
    | .inst _ _ => false
    | .other _ _ _ isClass => isClass
  if isClass && isInstance then .ok () else .error .typeError

end Oups.Indexer
