import Verif.Model.ExportData
/-
What exported data should be: the transformed values of the functions, point by point.
-/
namespace Verif.ExportData

/-- The transformed value of a function with the components `v` at a point. -/
noncomputable def transformed (log : ℝ → ℝ) : Mode → List ℂ → List ℂ
  | .real, v => v.map fun z => (z.re : ℂ)
  | .imag, v => v.map fun z => (z.im : ℂ)
  | .abs, v => [((Real.sqrt (v.map fun z => ‖z‖ ^ 2).sum : ℝ) : ℂ)]
  | .absSquared, v => [(((v.map fun z => ‖z‖ ^ 2).sum : ℝ) : ℂ)]
  | .logAbs, v => [(log (Real.sqrt (v.map fun z => ‖z‖ ^ 2).sum) : ℂ)]
  | _, v => v

/-- The components of an array at a point. -/
def Arr.point (a : Arr) (p : ℕ) : List ℂ := (List.range a.rows).map fun k => a.val k p

/-- The number of arrays of a container and the components of one of them at a point. -/
noncomputable def Data.point (d : Data) (j p : ℕ) : List ℂ :=
  (List.range d.components).map fun k =>
    ⟨((d.real[j]?).map fun a => a k p).getD 0, (d.imag.map fun l => ((l[j]?).map fun a => a k p).getD 0).getD 0⟩

/-- The values of the function at the vertices or at the centers of the elements. -/
def Fun.valuesAt (f : Fun) (w : Where) : Arr := if w = .vertices then f.onVertices else f.onCenters

/-- The number of vertices or elements. -/
def Grid.points (g : Grid) (w : Where) : ℕ := if w = .vertices then g.vertices else g.elements

/-- The arrays of values have the shape and the type that the function promises. -/
def Fun.Proper (f : Fun) (w : Where) : Prop :=
  (f.valuesAt w).rows = f.components ∧ (f.valuesAt w).cols = f.grid.points w ∧ (f.isFloat → ∀ k p, ((f.valuesAt w).val k p).im = 0)

/-- The transformations by name that are applied to the components one by one. -/
def Mode.Componentwise (m : Mode) : Prop := m = .none ∨ m = .real ∨ m = .imag

/-- The transformations by name that make one component. -/
def Mode.Norm (m : Mode) : Prop := m = .abs ∨ m = .absSquared ∨ m = .logAbs

/-- What is shown of a function: its real part if no transformation is given. -/
def Mode.shown : Mode → Mode
  | .none => .real
  | m => m

end Verif.ExportData
