import Verif.Model.Inherit
/-
What is expected of classes that derive from each other, written without the definitions of the model (statements of classes only
are taken from it).
-/
namespace Oups.Inherit

variable {A V : Type}

/-- Is the class a dataclass by its own decorator? -/
def Stmt.isData (c : Stmt A V) : Prop := c.deco ≠ .bare

instance (c : Stmt A V) : Decidable c.isData := inferInstanceAs (Decidable (_ ≠ _))

/-- Fields of a base class, those that a derived class annotates again being replaced at their place, then its new ones. -/
def merge (base own : List (AField A V)) : List (AField A V) :=
  base.map (fun f => (own.find? fun g => g.name = f.name).getD f) ++
    own.filter fun g => g.name ∉ base.map (·.name)

/-- Default value written for a name by a class. -/
def Stmt.written (c : Stmt A V) (n : String) : Option V := (c.own.find? fun f => f.name = n ∧ f.dflt.isSome).bind (·.dflt)

/-- Default value written last for a name. -/
def lastWritten (cs : List (Stmt A V)) (n : String) : Option V := (cs.reverse.filterMap fun c => c.written n).head?

/-- Fields expected for a chain of classes given from the last one. -/
def fieldsRev : List (Stmt A V) → List (AField A V)
  | [] => []
  | c :: cs =>
    if c.isData then merge (fieldsRev cs) (c.own.map fun f => { f with dflt := lastWritten (c :: cs).reverse f.name })
    else fieldsRev cs

/-- Fields expected for a chain of classes. -/
def fieldsOf (cs : List (Stmt A V)) : List (AField A V) := fieldsRev cs.reverse

/-- Fields without default value come first. -/
def Ordered (fs : List (AField A V)) : Prop := fs.Pairwise fun f g => f.dflt.isSome → g.dflt.isSome

/-- Annotations of a class statement have distinct names. -/
def Stmt.WF (c : Stmt A V) : Prop := (c.own.map (·.name)).Nodup

/-- The last decorator `toplevel` of a chain. -/
def sepOf (cs : List (Stmt A V)) : Option Indexer.Str :=
  (cs.reverse.filterMap fun c => match c.deco with
    | .toplevel s => some s
    | _ => none).head?

end Oups.Inherit
