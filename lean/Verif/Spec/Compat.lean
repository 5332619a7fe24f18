import Verif.Model.Compat
/-
What compatibility of spaces should mean.
-/
namespace Verif.Compat

/-- The functions a space consists of. -/
inductive Kind where
  | constants | linears | discontinuousLinears | polynomials (order : Int) | discontinuousPolynomials (order : Int)
  | dualConstants | discontinuousDualConstants | raviartThomas | nedelec | scaledNedelec | rwg
  | buffaChristiansen | rotatedBuffaChristiansen | unit
deriving DecidableEq, Repr

/-- The functions of a class; a class on the barycentric refinement represents the functions of the class on the grid itself
(C68, C69). -/
def Cls.kind : Cls → Kind
  | .constant | .constantBary => .constants
  | .linear | .linearBary => .linears
  | .linearDisc | .linearDiscBary => .discontinuousLinears
  | .poly p => .polynomials p
  | .polyDisc p => .discontinuousPolynomials p
  | .constantDual => .dualConstants
  | .constantDualDisc => .discontinuousDualConstants
  | .rt | .rtBary => .raviartThomas
  | .nc | .ncBary => .nedelec
  | .snc | .sncBary => .scaledNedelec
  | .rwg | .rwgBary => .rwg
  | .bc => .buffaChristiansen
  | .rbc => .rotatedBuffaChristiansen
  | .unit => .unit

/-- Two spaces contain the same kind of functions on the same grid. -/
def SameFunctions (r o : Raw) : Prop := r.args.cls.kind = o.args.cls.kind ∧ r.args.grid = o.args.grid

/-- The space was made after the last refinement of its grid. -/
def UpToDate (w : World) (r : Raw) : Prop := r.level = w.level r.args.grid

/-- The classes whose comparison is the one their documentation describes. -/
def Raw.Proper (r : Raw) : Prop := r.args.cls ≠ .linearDiscBary

/-- When two spaces of concrete classes are compatible. -/
def Agree (w : World) (r o : Raw) : Prop :=
  (r.args.cls = o.args.cls ∧ r.grid = o.grid) ∨
  (r.args.cls = .constant ∧ o.args.cls = .constantBary ∧ w.bary r.grid = some o.grid) ∨
  (r.args.cls = .constantBary ∧ o.args.cls = .constant ∧ w.bary o.grid = some r.grid) ∨
  (r.args.cls = .linear ∧ o.args.cls = .linearBary ∧ w.bary r.grid = some o.grid) ∨
  (r.args.cls = .linearBary ∧ o.args.cls = .linear ∧ w.bary o.grid = some r.grid)

/-- The number of dofs of a space depends on its class, grid, segment and the refinements of the grid; the barycentric versions of the
constants and of the continuous linear functions on the whole grid have as many as the functions themselves (C68). -/
structure CountLaw (count : Raw → Nat) : Prop where
  grid : ∀ a l g g', count ⟨a, l, g⟩ = count ⟨a, l, g'⟩
  constants : ∀ G l g, count ⟨⟨.constantBary, G, none⟩, l, g⟩ = count ⟨⟨.constant, G, none⟩, l, g⟩
  linears : ∀ G l g, count ⟨⟨.linearBary, G, none⟩, l, g⟩ = count ⟨⟨.linear, G, none⟩, l, g⟩

end Verif.Compat
