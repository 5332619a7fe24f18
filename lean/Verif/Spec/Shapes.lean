import Verif.Model.Fractals
import Mathlib.Data.List.Rotate
import Mathlib.Algebra.BigOperators.Fin

/-!
# What a list of geometry statements describes

Independent of how the statements were produced.
-/

noncomputable section

namespace Verif.Shapes

variable {P : Type*}

/-- The numbers given to points, in order. -/
def pointNumbers (g : List (Stmt P)) : List ℕ :=
  g.filterMap fun | .point n _ => some n | _ => none

/-- The numbers given to lines, in order. -/
def lineNumbers (g : List (Stmt P)) : List ℕ :=
  g.filterMap fun | .line n _ _ => some n | _ => none

/-- The numbers given to line loops, in order. -/
def loopNumbers (g : List (Stmt P)) : List ℕ :=
  g.filterMap fun | .loop n _ => some n | _ => none

/-- The numbers given to surfaces, in order. -/
def surfaceNumbers (g : List (Stmt P)) : List ℕ :=
  g.filterMap fun | .surface n _ => some n | _ => none

/-- No number is given twice to things of one kind, and numbers of lines are positive (so that the
sign of a number in a loop tells the direction). -/
structure WellNumbered (g : List (Stmt P)) : Prop where
  points : (pointNumbers g).Nodup
  lines : (lineNumbers g).Nodup
  loops : (loopNumbers g).Nodup
  surfaces : (surfaceNumbers g).Nodup
  positive : ∀ n ∈ lineNumbers g, 0 < n

/-- What a statement mentions has been declared before it; a line joins different points. -/
def Refers (before : List (Stmt P)) : Stmt P → Prop
  | .point _ _ => True
  | .line _ a b => a ∈ pointNumbers before ∧ b ∈ pointNumbers before ∧ a ≠ b
  | .loop _ ls => ∀ l ∈ ls, l.natAbs ∈ lineNumbers before
  | .surface _ l => l ∈ loopNumbers before

/-- Every statement of the list only mentions things declared earlier in it (or in `before`). -/
def InOrder (before : List (Stmt P)) : List (Stmt P) → Prop
  | [] => True
  | s :: rest => Refers before s ∧ InOrder (before ++ [s]) rest

/-- The signed line `l` leads from point `a` to point `b`. -/
def Joins (g : List (Stmt P)) (l : ℤ) (a b : ℕ) : Prop :=
  (∃ n : ℕ, l = n ∧ .line n a b ∈ g) ∨ (∃ n : ℕ, l = -n ∧ .line n b a ∈ g)

/-- The signed lines `ls`, one after the other, lead around the polygon with corners `ns`. -/
def Around (g : List (Stmt P)) (ls : List ℤ) (ns : List ℕ) : Prop :=
  List.Forall₂ (fun l (e : ℕ × ℕ) => Joins g l e.1 e.2) ls (ns.zip (ns.rotate 1))

/-- The surface numbered `s` is bounded by the polygon with corners `ns`. -/
def Bounds (g : List (Stmt P)) (s : ℕ) (ns : List ℕ) : Prop :=
  ∃ l ls, .surface s l ∈ g ∧ .loop l ls ∈ g ∧ Around g ls ns

/-- The surfaces of the geometry, in order, are the polygons of the list. -/
def Draws (g : List (Stmt P)) (faces : List (List ℕ)) : Prop :=
  List.Forall₂ (Bounds g) (surfaceNumbers g) faces

/-- The points numbered `ns` lie at `ps`. -/
def At (g : List (Stmt P)) (ns : List ℕ) (ps : List P) : Prop :=
  List.Forall₂ (fun n p => .point n p ∈ g) ns ps

/-- The polygons `faces` (of point numbers) are those of `polygons` (of positions). -/
def Places (g : List (Stmt P)) (faces : List (List ℕ)) (polygons : List (List P)) : Prop :=
  List.Forall₂ (At g) faces polygons

/-- The sides of a polygon, each in the direction in which it is passed. -/
def sides {α : Type*} (ns : List α) : List (α × α) := ns.zip (ns.rotate 1)

/-- The polygons form a closed oriented surface: every side of a polygon is passed in this direction
by that polygon only, and in the opposite direction by some polygon. -/
structure ClosedSurface {α : Type*} (faces : List (List α)) : Prop where
  once : (faces.flatMap sides).Nodup
  back : ∀ e ∈ faces.flatMap sides, e.swap ∈ faces.flatMap sides

/-- Points at the same position are the same point. -/
def SharesPoints (g : List (Stmt P)) : Prop :=
  ∀ n m p, .point n p ∈ g → .point m p ∈ g → n = m

/-! ## Self-similar sets -/

/-- The point half way to `v`. -/
def towards {d : ℕ} (v x : Fin d → ℝ) : Fin d → ℝ := fun k => (v k + x k) / 2

/-- The image of `x` under the maps "half way to corner `i`" of the word, the first letter applied
last. -/
def image {m d : ℕ} (v : Fin m → Fin d → ℝ) : List (Fin m) → (Fin d → ℝ) → (Fin d → ℝ)
  | [], x => x
  | i :: w, x => towards (v i) (image v w x)

/-- All words of length `n`. -/
def words (m : ℕ) : ℕ → List (List (Fin m))
  | 0 => [[]]
  | n + 1 => (words m n).flatMap fun w => (List.finRange m).map fun i => w ++ [i]

/-- The four sides of a tetrahedron. -/
def tetraFaces {α : Type*} (p : Fin 4 → α) : List (List α) :=
  [[p 0, p 1, p 2], [p 0, p 2, p 3], [p 0, p 3, p 1], [p 3, p 2, p 1]]

/-- The determinant of three vectors. -/
def det3 (u v w : V3) : ℝ :=
  u 0 * (v 1 * w 2 - v 2 * w 1) - u 1 * (v 0 * w 2 - v 2 * w 0) + u 2 * (v 0 * w 1 - v 1 * w 0)

/-- Seen along the normal `(b - a) × (c - a)` of the triangle `a b c`, the point `x` lies behind. -/
def Behind (a b c x : V3) : Prop := det3 (b - a) (c - a) (x - a) < 0

/-- The corners of the Sierpinski pyramid: a regular tetrahedron with edges of length 1. -/
def pyramidCorners : Fin 4 → V3 :=
  ![![1 / 2, √3 / 6, √6 / 3], ![0, 0, 0], ![1, 0, 0], ![1 / 2, √3 / 2, 0]]

/-- The corners of the Sierpinski triangle: an equilateral triangle with edges of length 1. -/
def triangleCorners : Fin 3 → V2 := ![![0, 0], ![1, 0], ![1 / 2, √3 / 2]]

end Verif.Shapes
