import Verif.Model.KeySet
/-
Model of a `ParquetSet` given keys of classes derived from its indexer class: `isinstance` (`/repo/oups/store/collection.py` 195)
accepts them. Classes are numbered, the indexer class being 0.

* Instances of two classes are never equal, even with the same values of fields, and are not ordered: `==` and `<` made by
  `dataclass` are for instances of the same class (`/repo/oups/store/indexer.py` 331).
* A derived class may be decorated by `toplevel` with another separator, and may have more fields: its paths are given (`path`).
  Those of a derived class that is not decorated are those of the indexer class for the same values (354).
* Keys read in the directory are of the indexer class (`from_path` is that of the class it is called on, collection.py 64).
-/
namespace Oups.KeySet
open Oups.Indexer (Str)
open Oups.Collection (Env)

section
variable {K C W : Type}

/-- `ParquetSet` over the indexer class of `E`, paths of keys of the class `t` being given by `path t`. -/
def tagEnv (E : Env K C W) (path : Nat → K → Str) : Env (Nat × K) C W where
  toPath k := path k.1 k.2
  fromPath s := (E.fromPath s).map fun k => (0, k)
  depth := E.depth
  lt a b := E.lt a.2 b.2
  names := E.names
  empty := E.empty
  writer := E.writer

/-- `<`. -/
def tagLt (lt : K → K → Except Err Bool) (a b : Nat × K) : Except Err Bool :=
  if a.1 = b.1 then lt a.2 b.2 else .error .notOrdered

end
end Oups.KeySet
