/-
What is in the data sets and what is written of it, for comparison with the numbers in the log.
-/
import Verif.Model.Stats

namespace Verif.Stats.Spec

/-- ILCD knows the distribution. -/
def known : Option Dist → Bool
  | some .normal => true
  | some .known => true
  | _ => false

/-- How many of a list have something. -/
def many {α : Type} (p : α → Bool) (l : List α) : Int := (l.countP p : Nat)

/-- The values of an exchange. -/
def exchAmts (x : Exch) : List Amt := x.amt :: x.props.map Prop'.amt

/-- The values of a product. -/
def productAmts (p : Product) : List Amt := exchAmts p.exch ++ p.volume.toList

/-- All values of a data set. -/
def amts (f : File) : List Amt := f.products.flatMap productAmts ++ f.elems.flatMap (fun e => exchAmts e.exch) ++ f.params

/-- The exchanges that are written. -/
def written (f : File) : List Exch := f.products.map Product.exch ++ (f.elems.filter Elem.mapped).map Elem.exch

/-- The properties that are written. -/
def writtenProps (o : Opts) (f : File) : List Prop' :=
  if o.properties then ((written f).flatMap Exch.props).filter Prop'.kept else []

/-- The estimated properties that are written. -/
def estimates (o : Opts) (f : File) : Int := if o.properties then many Exch.estimated (written f) else 0

/-- The uncertainties that stand in the exchanges and flow properties written. -/
def writtenUnc (o : Opts) (f : File) : Int :=
  many (fun x => known x.amt.dist) (written f) + many (fun p => p.uncLeft && known p.amt.dist) (writtenProps o f)

/-- Formulas and variables for production volumes that are not there. -/
def stray (f : File) : Int := many (fun p => p.volume.isNone && p.strayVar) f.products

/-- Of all data sets. -/
def total (g : File → Int) (l : List File) : Int := (l.map g).sum

/-- ILCD knows the uncertainty of a sum: that of the first amount alone, or that of normal ones. -/
def knownOfSum (d : Option Dist) (l : List (Option Dist)) : Bool :=
  known d && (l.all (· == none) || (d == some .normal && l.all fun x => x == none || x == some .normal))

end Verif.Stats.Spec
