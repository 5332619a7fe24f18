import Verif.Spec.ExportData
/-
C127: the data that is exported.
-/
namespace Verif.ExportData

/-- What the known transformations do to an array. -/
noncomputable def modeArr (log : ℝ → ℝ) : Mode → Arr → Arr
  | .real => realArr
  | .imag => imagArr
  | .abs => absArr
  | .absSquared => absSquaredArr
  | .logAbs => logAbsArr log
  | _ => id

/-- The transformation keeps the number of components of the function. -/
def Suits (m : Mode) (f : Fun) : Prop := m.Componentwise ∨ (m.Norm ∧ f.components = 1)

theorem transform_suits {log m f} (h : Suits m f) (a : Arr) : transformArray log m a = .ok (modeArr log m a) := by
  rcases h with (rfl | rfl | rfl) | ⟨rfl | rfl | rfl, _⟩ <;> rfl

theorem modeArr_rows {log m f} {a : Arr} (h : Suits m f) (ha : a.rows = f.components) : (modeArr log m a).rows = f.components := by
  rcases h with (rfl | rfl | rfl) | ⟨rfl | rfl | rfl, hc⟩ <;> simp [modeArr, realArr, imagArr, absArr, absSquaredArr, logAbsArr, ha, *]
  all_goals omega

theorem modeArr_cols {log m f} {a : Arr} (h : Suits m f) : (modeArr log m a).cols = a.cols := by
  rcases h with (rfl | rfl | rfl) | ⟨rfl | rfl | rfl, hc⟩ <;> rfl

theorem modeArr_im {log m f} {a : Arr} (h : Suits m f) (ha : ∀ k p, (a.val k p).im = 0) (k p : ℕ) : ((modeArr log m a).val k p).im = 0 := by
  rcases h with (rfl | rfl | rfl) | ⟨rfl | rfl | rfl, hc⟩ <;>
    first
      | exact ha k p
      | exact Complex.ofReal_im _

theorem modeArr_point {log m f} {a : Arr} (h : Suits m f) (ha : a.rows = f.components) (p : ℕ) :
    (List.range f.components).map (fun k => (modeArr log m a).val k p) = transformed log m (a.point p) := by
  rcases h with (rfl | rfl | rfl) | ⟨rfl | rfl | rfl, hc⟩ <;>
    simp [modeArr, transformed, Arr.point, ha, realArr, imagArr, absArr, absSquaredArr, logAbsArr, Function.comp_def, List.map_map, *]

theorem valuesAt_eq : Fun.valuesAt = Fun.at := by
  funext f w
  cases w <;> rfl

theorem points_eq : Grid.points = Grid.count := by
  funext f w
  cases w <;> rfl

theorem addFuns_ok {log : ℝ → ℝ} {grid : Grid} {w : Where} {mode : Mode} {funs : List Fun} {d : Data}
    (h : ∀ f ∈ funs, f.grid = grid ∧ f.Proper w ∧ f.components = d.components ∧ Suits mode f) (hn : d.npoints = grid.count w) :
    addFuns log grid w mode funs d = .ok { d with
      real := d.real ++ funs.map (fun f k p => ((modeArr log mode (f.at w)).val k p).re),
      imag := d.imag.map (· ++ funs.map (fun f k p => ((modeArr log mode (f.at w)).val k p).im)) } := by
  induction funs generalizing d with
  | nil => cases d with | mk c n r i => cases i <;> simp [addFuns]
  | cons f funs ih =>
    obtain ⟨hg, hp, hc, hs⟩ := h f (by simp)
    rw [Fun.Proper, valuesAt_eq, points_eq] at hp
    have hr := modeArr_rows (log := log) hs hp.1
    have hcol := modeArr_cols (log := log) (a := f.at w) hs
    rw [addFuns, if_neg (by simp [hg]), transform_suits hs]
    simp only [bind, Except.bind, Data.addData]
    rw [if_pos ⟨by rw [hr, hc], by rw [hcol, hp.2.1, hg, hn]⟩]
    simp only
    have h' : ∀ g ∈ funs, g.grid = grid ∧ g.Proper w ∧ g.components = d.components ∧ Suits mode g := fun g hg' => h g (by simp [hg'])
    rw [ih (by exact h') (by exact hn)]
    cases d with | mk c n r i => cases i <;> simp

/-- What one series becomes. -/
def GoodData (log : ℝ → ℝ) (mode : Mode) (w : Where) (grid : Grid) (s : List Fun) (d : Data) : Prop :=
  (∀ f0, s[0]? = some f0 → d.components = f0.components ∧ d.imag.isSome = !f0.isFloat) ∧
  d.npoints = grid.points w ∧ d.real.length = s.length ∧ (∀ l, d.imag = some l → l.length = s.length) ∧
    ∀ j f, s[j]? = some f → ∀ p < d.npoints, d.point j p = transformed log mode ((f.valuesAt w).point p)

/-- A series that can be exported: not empty, on one grid, every function with the components and with no larger type than the first, and with a
transformation that keeps the number of components. -/
def GoodSeries (mode : Mode) (w : Where) (grid : Grid) (s : List Fun) : Prop :=
  ∃ f0, s[0]? = some f0 ∧ ∀ f ∈ s, f.grid = grid ∧ f.Proper w ∧ f.components = f0.components ∧ (f0.isFloat → f.isFloat) ∧ Suits mode f

theorem series_ok {log : ℝ → ℝ} {grid : Grid} {w : Where} {mode : Mode} {s : List Fun} (h : GoodSeries mode w grid s) :
    ∃ d, seriesData log grid w mode s = .ok d ∧ GoodData log mode w grid s d := by
  obtain ⟨f0, h0, h⟩ := h
  cases s with
  | nil => simp at h0
  | cons g s =>
    simp only [List.getElem?_cons_zero, Option.some.injEq] at h0
    subst h0
    refine ⟨_, by rw [seriesData]; exact addFuns_ok (fun f hf => ⟨(h f hf).1, (h f hf).2.1, (h f hf).2.2.1, (h f hf).2.2.2.2⟩) rfl, ?_, by rw [points_eq]; rfl, by simp [Data.new],
      ?_, ?_⟩
    · intro f0 hf0
      simp only [List.getElem?_cons_zero, Option.some.injEq] at hf0
      subst hf0
      cases hF : g.isFloat <;> simp [Data.new, hF]
    · intro l hl
      cases hF : g.isFloat <;> simp [Data.new, hF] at hl
      simp [← hl]
    · intro j f hj p _
      obtain ⟨hg, hp, hc, hF, hs⟩ := h f (List.mem_of_getElem? hj)
      rw [Fun.Proper, valuesAt_eq, points_eq] at hp
      rw [valuesAt_eq]
      rw [← modeArr_point hs hp.1 p, hc]
      simp only [Data.point, Data.new, List.nil_append]
      refine List.map_congr_left fun k _ => ?_
      have hmap : ∀ (F : Fun → ℕ → ℕ → ℝ), ((g :: s).map F)[j]? = some (F f) := fun F => by rw [List.getElem?_map, hj]; rfl
      apply Complex.ext
      · simp only [hmap]
        rfl
      · cases hGF : g.isFloat
        · simp only [Bool.not_false, if_true, Option.map_some, List.nil_append, hmap]
          rfl
        · have := modeArr_im (log := log) hs (hp.2.2 (hF hGF)) k p
          simp [this]

theorem allSeries_ok {log : ℝ → ℝ} {grid : Grid} {w : Where} {mode : Mode} {series : List (List Fun)}
    (h : ∀ s ∈ series, GoodSeries mode w grid s) :
    ∃ ds, allSeries log grid w mode series = .ok ds ∧ List.Forall₂ (GoodData log mode w grid) series ds := by
  induction series with
  | nil => exact ⟨[], rfl, .nil⟩
  | cons s series ih =>
    obtain ⟨ds, e, hds⟩ := ih fun t ht => h t (by simp [ht])
    obtain ⟨d, e', hd⟩ := series_ok (log := log) (h s (by simp))
    exact ⟨d :: ds, by simp [allSeries, e, e', bind, Except.bind, pure, Except.pure], .cons hd hds⟩

/-- The option `data_type`. -/
def whereOf : Option String → Option Where
  | none => some .vertices
  | some "node" => some .vertices
  | some "element" => some .centers
  | _ => none

/-- The data of a data set at the points. -/
def DataSet.data (d : DataSet) : Where → List Data
  | .vertices => d.vertexData
  | .centers => d.elementData

/-- Every series of functions that can be exported is given to the writer: one container for each series, one array for each function, and in it, at
every vertex or element, the transformed value of the function.  Partial: see `GoodSeries`, and the counterexamples below. -/
theorem C127_export_partial (log : ℝ → ℝ) (extension : String) (grid : Grid) (series : List (List Fun)) (mode : Mode) (dataType : Option String)
    (w : Where) (timesteps : Option (List ℝ)) (he : extension = ".msh" ∨ extension = ".json" ∨ extension = ".vtk")
    (hw : whereOf dataType = some w) (hne : series ≠ []) (h : ∀ s ∈ series, GoodSeries mode w grid s) :
    ∃ D, export' log { extension := extension, dataSeries := some series, transformation := mode, dataType := dataType, timesteps := timesteps } =
        .ok (some D) ∧ D.grid = grid ∧ List.Forall₂ (GoodData log mode w grid) series (D.data w) ∧
      (∀ w', w' ≠ w → D.data w' = []) ∧ ∀ t, timesteps = some t → D.timesteps = t := by
  obtain ⟨ds, e, hds⟩ := allSeries_ok (log := log) h
  have hne' : ∃ f s rest, series = (f :: s) :: rest ∧ f.grid = grid := by
    cases series with
    | nil => exact absurd rfl hne
    | cons s rest =>
      obtain ⟨f0, h0, hs⟩ := h s (by simp)
      cases s with
      | nil => simp at h0
      | cons f s => exact ⟨f, s, rest, rfl, (hs f (by simp)).1⟩
  obtain ⟨f, s, rest, hser, hfg⟩ := hne'
  have hmode : dataType.getD "node" = "node" ∧ w = .vertices ∨ dataType.getD "node" = "element" ∧ w = .centers := by
    unfold whereOf at hw
    split at hw <;> simp_all
  refine ⟨match w with | .vertices => ⟨grid, [], ds, timesteps.getD [0]⟩ | .centers => ⟨grid, ds, [], timesteps.getD [0]⟩, ?_, ?_, ?_, ?_, ?_⟩
  · subst hser
    unfold export'
    rw [if_neg (not_not_intro he)]
    rcases hmode with ⟨h1, rfl⟩ | ⟨h1, rfl⟩ <;>
      simp [h1, toDataSet, hfg, e, bind, Except.bind, pure, Except.pure]
  · cases w <;> rfl
  · cases w <;> exact hds
  · intro w' hw'
    cases w <;> cases w' <;> first | rfl | exact absurd rfl hw'
  · rintro t rfl
    cases w <;> rfl

/-- One function is a series of one function. -/
theorem C127_one (log : ℝ → ℝ) (k : Args) (f : Fun) (hg : k.grid = none) (hf : k.gridFunction = some f) (hd : k.dataSeries = none) :
    export' log k = export' log { k with gridFunction := none, dataSeries := some [[f]] } := by
  simp [export', hg, hf, hd]

/-- What is refused: other formats, none or several kinds of objects, transformations of functions with several components (or none) to one component,
unknown transformations, functions on other grids, empty series. -/
theorem C127_errors (log : ℝ → ℝ) :
    (∀ k : Args, ¬ (k.extension = ".msh" ∨ k.extension = ".json" ∨ k.extension = ".vtk") →
      export' log k = .error (.valueError "Unsupported file format.")) ∧
    (∀ k : Args, (k.extension = ".msh" ∨ k.extension = ".json" ∨ k.extension = ".vtk") →
      k.grid.isSome.toNat + k.gridFunction.isSome.toNat + k.dataSeries.isSome.toNat ≠ 1 →
      export' log k = .error (.valueError "Exactly one of 'grid', 'grid_function' or 'data_series'  must be provided.")) ∧
    (∀ ext dataType w (m : Mode) (f : Fun) t, (ext = ".msh" ∨ ext = ".json" ∨ ext = ".vtk") → whereOf dataType = some w → m.Norm → f.components ≠ 1 →
      export' log { extension := ext, gridFunction := some f, transformation := m, dataType := dataType, timesteps := t } =
        .error (.valueError "'data' has wrong dimensions.")) ∧
    (∀ ext dataType w name (f : Fun) t, (ext = ".msh" ∨ ext = ".json" ∨ ext = ".vtk") → whereOf dataType = some w →
      export' log { extension := ext, gridFunction := some f, transformation := .other name, dataType := dataType, timesteps := t } =
        .error .typeError) ∧
    (∀ grid w mode (f : Fun) s, f.grid ≠ grid → seriesData log grid w mode (f :: s) = .error (.valueError "Grids do not agree.")) ∧
    (∀ ext dataType w m t, (ext = ".msh" ∨ ext = ".json" ∨ ext = ".vtk") → whereOf dataType = some w →
      export' log { extension := ext, dataSeries := some [], transformation := m, dataType := dataType, timesteps := t } = .error .indexError) := by
  have hmode : ∀ dataType w, whereOf dataType = some w →
      dataType.getD "node" = "node" ∧ w = .vertices ∨ dataType.getD "node" = "element" ∧ w = .centers := by
    intro dataType w hw
    unfold whereOf at hw
    split at hw <;> simp_all
  refine ⟨?_, ?_, ?_, ?_, ?_, ?_⟩
  · intro k h
    rw [export', if_pos h]
  · intro k h h'
    rw [export', if_neg (not_not_intro h), if_pos h']
  · intro ext dataType w m f t he hw hm hc
    have hrow : ∃ a, transformArray log m (f.at w) = .ok a ∧ a.rows = 1 := by
      rcases hm with rfl | rfl | rfl <;> exact ⟨_, rfl, rfl⟩
    obtain ⟨a, e, ha⟩ := hrow
    have hs : allSeries log f.grid w m [[f]] = .error (.valueError "'data' has wrong dimensions.") := by
      have : (Data.new f.components (f.grid.count w) !f.isFloat).addData a = .error (.valueError "'data' has wrong dimensions.") := by
        rw [Data.addData, if_neg]
        rintro ⟨h1, _⟩
        exact hc (by rw [ha] at h1; simpa [Data.new] using h1.symm)
      simp [allSeries, seriesData, addFuns, e, this, bind, Except.bind]
    unfold export'
    rw [if_neg (not_not_intro he)]
    rcases hmode _ _ hw with ⟨h1, rfl⟩ | ⟨h1, rfl⟩ <;> simp [h1, toDataSet, hs, bind, Except.bind]
  · intro ext dataType w name f t he hw
    have hs : allSeries log f.grid w (.other name) [[f]] = .error .typeError := by
      simp [allSeries, seriesData, addFuns, transformArray, bind, Except.bind]
    unfold export'
    rw [if_neg (not_not_intro he)]
    rcases hmode _ _ hw with ⟨h1, rfl⟩ | ⟨h1, rfl⟩ <;> simp [h1, toDataSet, hs, bind, Except.bind]
  · intro grid w mode f s h
    simp [seriesData, addFuns, h]
  · intro ext dataType w m t he hw
    unfold export'
    rw [if_neg (not_not_intro he)]
    rcases hmode _ _ hw with ⟨h1, rfl⟩ | ⟨h1, rfl⟩ <;> simp [h1]

theorem addFuns_congr {log : ℝ → ℝ} {m1 m2 : Mode} (h : ∀ a, transformArray log m1 a = transformArray log m2 a) (grid : Grid) (w : Where)
    (funs : List Fun) (d : Data) : addFuns log grid w m1 funs d = addFuns log grid w m2 funs d := by
  induction funs generalizing d with
  | nil => rfl
  | cons f funs ih => simp only [addFuns, h, ih]

theorem allSeries_congr {log : ℝ → ℝ} {m1 m2 : Mode} (h : ∀ a, transformArray log m1 a = transformArray log m2 a) (grid : Grid) (w : Where)
    (series : List (List Fun)) : allSeries log grid w m1 series = allSeries log grid w m2 series := by
  induction series with
  | nil => rfl
  | cons s series ih => cases s <;> simp only [allSeries, seriesData, addFuns_congr h, ih]

/-- `visualize` shows what `export` writes, with the real part if no transformation is given. -/
theorem C127_visualize (log : ℝ → ℝ) (extension : String) (f : Fun) (mode : String) (m : Mode) :
    visualize log extension f mode m =
      export' log { extension := extension, gridFunction := some f, transformation := m.shown, dataType := some mode } := by
  have h : ∀ a, transformArray log (viewerMode log m) a = transformArray log m.shown a := by
    intro a
    cases m <;> rfl
  simp only [visualize, export', toDataSet, allSeries_congr h]

/-- `visualize` of a grid function with its default mode writes nothing: the viewer shows an empty file. -/
theorem C127_counterexample_visualize (log : ℝ → ℝ) (f : Fun) (transformation : Mode) :
    visualize log ".msh" f (transformation := transformation) = .ok none ∧ visualize log ".vtk" f (transformation := transformation) = .ok none := by
  constructor <;> simp [visualize, export']

/-- A grid with one vertex. -/
def point : Grid := ⟨0, 1, 0⟩

/-- A function with the value `z`. -/
def constant (isFloat : Bool) (z : ℂ) : Fun := ⟨point, isFloat, 1, ⟨1, 1, !isFloat, fun _ _ => z⟩, ⟨1, 0, !isFloat, fun _ _ => z⟩⟩

/-- A series of a real and a complex function: the imaginary part of the second is lost, and there are two arrays but one time step. -/
theorem C127_counterexample_series (log : ℝ → ℝ) :
    ∃ D d, export' log { extension := ".vtk", dataSeries := some [[constant true 1, constant false Complex.I]] } = .ok (some D) ∧
      D.vertexData = [d] ∧ d.point 1 0 = [0] ∧ (constant false Complex.I).onVertices.point 0 = [Complex.I] ∧ d.real.length = 2 ∧
      D.timesteps.length = 1 := by
  refine ⟨_, _, by
    simp [export', toDataSet, allSeries, seriesData, addFuns, transformArray, Data.addData, Data.new, constant, point, Fun.at, Grid.count, bind,
      Except.bind, pure, Except.pure]
    rfl, rfl, ?_, ?_, rfl, rfl⟩
  · simp [Data.point]
    rfl
  · simp [Arr.point, constant]

/-- A complex function with two components and its real part: the premises can hold. -/
example : GoodSeries .real .vertices point [⟨point, false, 2, ⟨2, 1, true, fun _ _ => Complex.I⟩, ⟨2, 0, true, fun _ _ => 0⟩⟩] ∧
    GoodSeries .abs .vertices point [constant false Complex.I, constant true 1] := by
  constructor
  · refine ⟨_, rfl, ?_⟩
    simp [Fun.Proper, Fun.valuesAt, Grid.points, point, Suits, Mode.Componentwise]
  · refine ⟨_, rfl, ?_⟩
    simp [Fun.Proper, Fun.valuesAt, Grid.points, point, constant, Suits, Mode.Norm]

end Verif.ExportData
