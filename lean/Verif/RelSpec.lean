import Verif.Relation
/-!
# Specification: the set of integer points of a relation

Independent of the library functions: only the data (`Part`, `Rel`) is used.  The format is the
one documented in include/osl/relation.h:76-93 (and doc/openscop.texi): the first column of a
row is 0 for an equality and 1 for an inequality (`>= 0`); then come the coefficients of the
output dimensions, the input dimensions, the local (existentially quantified) dimensions and the
parameters, and at last the constant.
-/

namespace Osl

/-- Scalar product. -/
def dot : List Int → List Int → Int
  | a :: as, b :: bs => a * b + dot as bs
  | _, _ => 0

/-- The constraint `row` holds at the point `pt` (values of all dimensions and parameters). -/
def RowHolds (row pt : List Int) : Prop :=
  match row with
  | [] => True
  | tag :: coefs => if tag = 0 then dot coefs (pt ++ [1]) = 0 else 0 ≤ dot coefs (pt ++ [1])

instance (row pt : List Int) : Decidable (RowHolds row pt) := by
  unfold RowHolds; split <;> infer_instance

/-- All constraints of the part hold at `pt`. -/
def Part.Holds (p : Part) (pt : List Int) : Prop := ∀ row ∈ p.m, RowHolds row pt

instance (p : Part) (pt : List Int) : Decidable (p.Holds pt) := by unfold Part.Holds; infer_instance

/-- `(x, y, n)` (output, input, parameters) belongs to the part: there are values of the local
dimensions for which all constraints hold. -/
def Part.Mem (p : Part) (x y n : List Int) : Prop :=
  (x.length : Int) = p.nb_output_dims ∧ (y.length : Int) = p.nb_input_dims ∧
  (n.length : Int) = p.nb_parameters ∧
  ∃ loc : List Int, (loc.length : Int) = p.nb_local_dims ∧ p.Holds (x ++ y ++ loc ++ n)

/-- A relation denotes the union of the sets of its parts. -/
def Rel.Mem (r : Rel) (x y n : List Int) : Prop := ∃ p ∈ r, Part.Mem p x y n

/-- Well-shaped part: the matrix has the advertised size, the columns are those the dimensions
require, and every entry can be stored in the precision of the relation. -/
structure Part.Valid (c : Cfg) (p : Part) : Prop where
  rows : (p.m.length : Int) = p.nb_rows
  cols : ∀ row ∈ p.m, (row.length : Int) = p.nb_columns
  ncols : 0 ≤ p.nb_columns
  prec : kind c p.precision ≠ none
  ents : ∀ row ∈ p.m, ∀ a ∈ row, InPrec c p.precision a

/-- All parts are well-shaped. -/
def Rel.Valid (c : Cfg) (r : Rel) : Prop := ∀ p ∈ r, Part.Valid c p

/-- The dimensions are known and account for all columns. -/
def Part.Dims (p : Part) : Prop :=
  0 ≤ p.nb_output_dims ∧ 0 ≤ p.nb_input_dims ∧ 0 ≤ p.nb_local_dims ∧ 0 ≤ p.nb_parameters ∧
  p.nb_columns = p.nb_output_dims + p.nb_input_dims + p.nb_local_dims + p.nb_parameters + 2

instance (p : Part) : Decidable p.Dims := by unfold Part.Dims; infer_instance

end Osl
