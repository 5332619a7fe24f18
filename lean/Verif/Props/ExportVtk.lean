import Verif.Props.ExportData
import Verif.Props.Vtk
/-
C127: a grid function exported to a VTK file.
-/
namespace Verif.ExportData
open Verif.Grid

/-- The rows of an array. -/
def table (components npoints : ℕ) (a : ℕ → ℕ → ℝ) : List (List ℝ) :=
  (List.range npoints).map fun p => (List.range components).map fun k => a k p

/-- A container as the VTK writer reads it; `bempp_object_to_grid_data_set` gives no description. -/
def Data.toVtk (d : Data) : Vtk.Data ℝ :=
  ⟨"", d.components, d.real.map (table d.components d.npoints), d.imag.map fun l => l.map (table d.components d.npoints)⟩

/-- A data set as the VTK writer reads it, with the coordinates of the vertices and the elements of the grid. -/
def DataSet.toVtk (D : DataSet) (vertices : List (P3 ℝ)) (elements : List (ℕ × ℕ × ℕ)) (description : String) : Vtk.DataSet ℝ :=
  ⟨vertices, elements, D.elementData.map Data.toVtk, D.vertexData.map Data.toVtk, description, D.timesteps⟩

/-- The transformed values of a function at the points, and what a VTK file should have for them: one field of real parts, for complex functions a
second one of imaginary parts. -/
noncomputable def vtkFields (log : ℝ → ℝ) (mode : Mode) (w : Where) (f : Fun) : List (Bool × List (List ℝ)) :=
  let values := (List.range (f.grid.points w)).map fun p => transformed log mode ((f.valuesAt w).point p)
  (decide (w = .vertices), values.map fun v => v.map Complex.re) ::
    if f.isFloat then [] else [(decide (w = .vertices), values.map fun v => v.map Complex.im)]

/-- Exporting a function with one or three components to a VTK file and reading the file gives the grid and the transformed values at the vertices or
centers; partial: the transformations that keep the number of components. -/
theorem C127_vtk_partial (log : ℝ → ℝ) (f : Fun) (mode : Mode) (dataType : Option String) (w : Where) (time : ℝ) (stem description : String)
    (vertices : List (P3 ℝ)) (elements : List (ℕ × ℕ × ℕ)) (hv : vertices.length = f.grid.vertices) (he : elements.length = f.grid.elements)
    (hw : whereOf dataType = some w) (hf : f.Proper w) (hs : Suits mode f) (hc : f.components = 1 ∨ f.components = 3) :
    ∃ D name file c, export' log { extension := ".vtk", gridFunction := some f, transformation := mode, dataType := dataType, timesteps := some [time] } =
        .ok (some D) ∧
      Vtk.exportDataSets stem [D.toVtk vertices elements description] = .ok [(name, file)] ∧ Vtk.read file = some c ∧
      c.points = vertices ∧ c.cells = elements ∧ c.time = time ∧
      c.fields.map (fun g => (g.point, g.rows)) = vtkFields log mode w f := by
  obtain ⟨D, e, _, hD, hD', ht⟩ := C127_export_partial log ".vtk" f.grid [[f]] mode dataType w (some [time]) (by simp) hw (by simp)
    (by
      intro s hs'
      simp only [List.mem_singleton] at hs'
      subst hs'
      exact ⟨f, rfl, by simp [hf, hs]⟩)
  have htime := ht _ rfl
  obtain ⟨d, hdata⟩ : ∃ d, D.data w = [d] := by
    generalize D.data w = ds at hD ⊢
    cases hD with
    | cons _ h2 => cases h2; exact ⟨_, rfl⟩
  rw [hdata] at hD
  obtain ⟨hcomp, hnp, hlen, himl, hpt⟩ : GoodData log mode w f.grid [f] d := by
    cases hD with
    | cons h _ => exact h
  obtain ⟨hc1, hc2⟩ := hcomp f rfl
  obtain ⟨r, hr⟩ : ∃ r, d.real = [r] := List.length_eq_one_iff.1 hlen
  have hpoint : ∀ p < d.npoints, (List.range d.components).map (fun k => (⟨r k p, (d.imag.map fun l => ((l[0]?).map fun a => a k p).getD 0).getD 0⟩ : ℂ)) =
      transformed log mode ((f.valuesAt w).point p) := by
    intro p hp
    rw [← hpt 0 f rfl p hp, Data.point, hr]
    rfl
  have hre : table d.components d.npoints r =
      ((List.range (f.grid.points w)).map fun p => transformed log mode ((f.valuesAt w).point p)).map fun v => v.map Complex.re := by
    rw [table, ← hnp, List.map_map]
    refine List.map_congr_left fun p hp => ?_
    rw [Function.comp, ← hpoint p (List.mem_range.1 hp), List.map_map]
    rfl
  have hfit : d.toVtk.Fits d.npoints 1 := by
    refine ⟨by simpa [Data.toVtk, hc1] using hc, ?_, ?_⟩
    · intro t ht
      obtain rfl : t = 0 := by omega
      exact ⟨table d.components d.npoints r, by simp [Data.toVtk, hr], by simp [table], by simp [table, Data.toVtk]⟩
    · intro im him t ht
      obtain rfl : t = 0 := by omega
      simp only [Data.toVtk, Option.map_eq_some_iff] at him
      obtain ⟨l, hl, rfl⟩ := him
      obtain ⟨i, rfl⟩ : ∃ i, l = [i] := List.length_eq_one_iff.1 (himl l hl)
      exact ⟨table d.components d.npoints i, by simp, by simp [table], by simp [table, Data.toVtk]⟩
  have hfits : (D.toVtk vertices elements description).Fits := by
    cases w with
    | vertices =>
      have h1 : D.elementData = [] := hD' .centers (by simp)
      have h2 : D.vertexData = [d] := hdata
      have h3 : d.npoints = vertices.length := by rw [hnp, hv]; rfl
      refine ⟨by simp [DataSet.toVtk, h1], ?_⟩
      simp only [DataSet.toVtk, h2, htime, List.map_cons, List.map_nil, List.mem_singleton, List.length_singleton]
      rintro x rfl
      rw [← h3]
      exact hfit
    | centers =>
      have h1 : D.vertexData = [] := hD' .vertices (by simp)
      have h2 : D.elementData = [d] := hdata
      have h3 : d.npoints = elements.length := by rw [hnp, he]; rfl
      refine ⟨?_, by simp [DataSet.toVtk, h1]⟩
      simp only [DataSet.toVtk, h2, htime, List.map_cons, List.map_nil, List.mem_singleton, List.length_singleton]
      rintro x rfl
      rw [← h3]
      exact hfit
  obtain ⟨files, h1, h2, h3⟩ := Vtk.C124_round_trip_partial stem _ hfits
  have hT : (D.toVtk vertices elements description).timesteps = [time] := htime
  rw [hT] at h2 h3
  obtain ⟨file, c, g1, g2, g3, _, _⟩ := h3 0 (by simp)
  obtain ⟨x, rfl⟩ : ∃ x, files = [x] := List.length_eq_one_iff.1 h2
  simp only [List.getElem?_cons_zero, Option.some.injEq] at g1
  subst g1
  refine ⟨D, _, file, c, ?_, h1, g2, g3.points, g3.cells, ?_, ?_⟩
  · rw [C127_one log _ f rfl rfl rfl]
    exact e
  · have := g3.time
    rw [hT] at this
    simpa using this.symm
  · rw [g3.fields]
    have harr : (d.toVtk.arrays 0).map (fun a => (decide (w = .vertices), a)) = vtkFields log mode w f := by
      rw [vtkFields, ← hre]
      cases hF : f.isFloat with
      | true =>
        have : d.imag = none := by
          rw [hF] at hc2
          simpa using hc2
        simp [Vtk.Data.arrays, Data.toVtk, hr, this]
      | false =>
        rw [hF] at hc2
        obtain ⟨l, hl⟩ := Option.isSome_iff_exists.1 (by simpa using hc2)
        obtain ⟨i, rfl⟩ : ∃ i, l = [i] := List.length_eq_one_iff.1 (himl l hl)
        have him : table d.components d.npoints i =
            ((List.range (f.grid.points w)).map fun p => transformed log mode ((f.valuesAt w).point p)).map fun v => v.map Complex.im := by
          rw [table, ← hnp, List.map_map]
          refine List.map_congr_left fun p hp => ?_
          rw [Function.comp, ← hpoint p (List.mem_range.1 hp), List.map_map, hl]
          rfl
        simp [Vtk.Data.arrays, Data.toVtk, hr, hl, ← him]
    cases w with
    | vertices =>
      have h1 : D.elementData = [] := hD' .centers (by simp)
      have h2 : D.vertexData = [d] := hdata
      rw [← harr]
      simp [DataSet.toVtk, h1, h2]
    | centers =>
      have h1 : D.vertexData = [] := hD' .vertices (by simp)
      have h2 : D.elementData = [d] := hdata
      rw [← harr]
      simp [DataSet.toVtk, h1, h2]

/-- The absolute value of a complex function on one vertex: the premises hold. -/
example (log : ℝ → ℝ) : ∃ D name file c,
    export' log ⟨".vtk", none, some (constant false (3 + 4 * Complex.I)), none, .abs, some "node", some [0]⟩ = .ok (some D) ∧
    Vtk.exportDataSets "out" [D.toVtk [⟨0, 0, 0⟩] [] "title"] = .ok [(name, file)] ∧ Vtk.read file = some c ∧
      c.points = [⟨0, 0, 0⟩] ∧ c.cells = [] ∧ c.time = 0 ∧
      c.fields.map (fun g => (g.point, g.rows)) = vtkFields log .abs .vertices (constant false (3 + 4 * Complex.I)) :=
  C127_vtk_partial log _ .abs _ .vertices 0 "out" "title" _ _ rfl rfl rfl ⟨rfl, rfl, by simp [constant]⟩ (Or.inr ⟨Or.inl rfl, rfl⟩) (Or.inl rfl)

end Verif.ExportData
