import Verif.Spec.Vtk
import Std.Data.String.ToNat
/-
C124: VTK files.
-/
namespace Verif.Vtk
open Verif.Grid
variable {F : Type}

theorem takeRows_map {α : Type} (row : Line F → Option α) (g : α → Line F) (h : ∀ a, row (g a) = some a) (xs : List α) (rest : List (Line F)) :
    takeRows row xs.length (xs.map g ++ rest) = some (xs, rest) := by
  induction xs with
  | nil => rfl
  | cons x xs ih => simp only [List.length_cons, List.map_cons, List.cons_append, takeRows, h, ih]

theorem takeRows_types (n : Nat) (rest : List (Line F)) :
    takeRows typeRow n (List.replicate n [.int 5] ++ rest) = some (List.replicate n (), rest) := by
  induction n with
  | zero => rfl
  | succ n ih =>
    have h5 : typeRow ([.int 5] : Line F) = some () := rfl
    simp only [List.replicate_succ, List.cons_append, takeRows, h5, ih]

theorem lines_append (P C : Nat) (r : Reader F) (a b : List (Line F)) :
    r.lines P C (a ++ b) = (r.lines P C a).bind fun r => r.lines P C b := by
  induction a generalizing r with
  | nil => rfl
  | cons l a ih =>
    simp only [List.cons_append, Reader.lines]
    split
    · rfl
    · exact ih _

theorem scalar_rows (P C : Nat) (pt : Option Bool) (f : Field F) (fs : List (Field F × Bool)) (xs : List F) :
    (⟨pt, (f, false) :: fs⟩ : Reader F).lines P C (xs.map fun v => [.real v]) =
      some ⟨pt, (⟨f.point, f.name, f.rows ++ xs.map fun x => [x]⟩, false) :: fs⟩ := by
  induction xs generalizing f with
  | nil => simp [Reader.lines]
  | cons x xs ih =>
    simp only [List.map_cons, Reader.lines, Reader.line]
    rw [ih]
    simp

theorem vector_rows (P C : Nat) (pt : Option Bool) (f : Field F) (fs : List (Field F × Bool)) (xs : List (List F)) (h : ∀ v ∈ xs, v.length = 3) :
    (⟨pt, (f, true) :: fs⟩ : Reader F).lines P C (xs.map fun v => v.map .real) =
      some ⟨pt, (⟨f.point, f.name, f.rows ++ xs⟩, true) :: fs⟩ := by
  induction xs generalizing f with
  | nil => simp [Reader.lines]
  | cons x xs ih =>
    have hx := h x (by simp)
    match x, hx with
    | [a, b, c], _ =>
      simp only [List.map_cons, List.map_nil, Reader.lines, Reader.line]
      rw [ih _ fun v hv => h v (by simp [hv])]
      simp

theorem flatten_singletons (xs : List (List F)) (h : ∀ v ∈ xs, v.length = 1) : (xs.flatten.map fun x => [x]) = xs := by
  induction xs with
  | nil => rfl
  | cons x xs ih =>
    have hx := h x (by simp)
    match x, hx with
    | [a], _ =>
      simp only [List.flatten_cons, List.map_append, List.map_cons, List.map_nil, List.cons_append, List.nil_append]
      rw [ih fun v hv => h v (by simp [hv])]

/-- A field that is written is read. -/
theorem writeField_read (P C : Nat) (p : Bool) (fs : List (Field F × Bool)) (name : String) {k : Nat} (hk : k = 1 ∨ k = 3)
    (array : List (List F)) (h : ∀ v ∈ array, v.length = k) :
    ∃ b, (⟨some p, fs⟩ : Reader F).lines P C (writeField name k array) = some ⟨some p, (⟨p, name, array⟩, b) :: fs⟩ := by
  rcases hk with rfl | rfl
  · refine ⟨false, ?_⟩
    unfold writeField
    rw [if_pos rfl, lines_append]
    have : (⟨some p, fs⟩ : Reader F).lines P C ([.word "SCALARS", .word name, .word "double"] :: [.word "LOOKUP_TABLE", .word "default"] ::
        array.flatten.map fun v => [.real v]) = some ⟨some p, (⟨p, name, array⟩, false) :: fs⟩ := by
      simp only [Reader.lines, Reader.line]
      simp only [and_self, if_true]
      rw [scalar_rows, flatten_singletons array h]
      rfl
    rw [this]; rfl
  · refine ⟨true, ?_⟩
    unfold writeField
    rw [if_neg (by decide), if_pos rfl, lines_append]
    have : (⟨some p, fs⟩ : Reader F).lines P C ([.word "VECTORS", .word name, .word "double"] ::
        array.map fun v => v.map .real) = some ⟨some p, (⟨p, name, array⟩, true) :: fs⟩ := by
      simp only [Reader.lines, Reader.line]
      simp only [show ("VECTORS" : String) = "SCALARS" ↔ False from by decide, false_and, if_false, and_self, if_true]
      rw [vector_rows _ _ _ _ _ _ h]
      rfl
    rw [this]; rfl

/-- The fields of a list of data that is written are read. -/
theorem writeFields_read (P C : Nat) (p : Bool) (pre : String) {n steps t : Nat} (ht : t < steps) (ds : List (Data F)) (hd : ∀ x ∈ ds, x.Fits n steps)
    (description : String) (i : Nat) :
    ∃ lines de, writeFields pre t description i ds = .ok (lines, de) ∧ ∀ fs0, ∃ fs : List (Field F × Bool),
      (⟨some p, fs0⟩ : Reader F).lines P C lines = some ⟨some p, fs.reverse ++ fs0⟩ ∧
      fs.map (fun f => (f.1.point, f.1.rows)) = (ds.flatMap fun x => (x.arrays t).map fun a => (p, a)) ∧
      (∀ f ∈ fs, f.1.point = p ∧ f.1.rows.length = n) ∧
      ((∀ x ∈ ds, x.description = "") → fs.map (fun f => f.1.name) = defaultNames pre i ds) := by
  induction ds generalizing description i with
  | nil => exact ⟨[], description, rfl, fun fs0 => ⟨[], rfl, rfl, fun f hf => absurd hf List.not_mem_nil, fun _ => rfl⟩⟩
  | cons d ds ih =>
    obtain ⟨lines, de, h1, h2⟩ := ih (fun x hx => hd x (by simp [hx])) (fieldName pre description i d) (i + 1)
    have hf := hd d (by simp)
    obtain ⟨re, hr1, hr2, hr3⟩ := hf.real t ht
    have hname : (∀ x ∈ d :: ds, x.description = "") → fieldName pre description i d = pre ++ toString i := fun h => by
      unfold fieldName; rw [if_pos (h d (by simp))]
    cases him : d.imag with
    | none =>
      refine ⟨writeField (fieldName pre description i d) d.components re ++ lines, de, ?_, fun fs0 => ?_⟩
      · simp only [writeFields, hr1, him, h1]
      · obtain ⟨b, hb⟩ := writeField_read P C p fs0 (fieldName pre description i d) hf.components re hr3
        obtain ⟨fs, g1, g2, g3, g4⟩ := h2 ((⟨p, fieldName pre description i d, re⟩, b) :: fs0)
        refine ⟨(⟨p, fieldName pre description i d, re⟩, b) :: fs, ?_, ?_, ?_, ?_⟩
        · rw [lines_append, hb]
          show Reader.lines P C ⟨some p, _⟩ lines = _
          rw [g1]; simp
        · simp only [List.map_cons, List.flatMap_cons, g2, Data.arrays, hr1, him]
          simp
        · intro f hf
          rcases List.mem_cons.1 hf with rfl | hf
          · exact ⟨rfl, hr2⟩
          · exact g3 f hf
        · intro h
          simp only [List.map_cons, defaultNames, him, g4 fun x hx => h x (by simp [hx]), hname h]
          simp
    | some imag =>
      obtain ⟨im, hi1, hi2, hi3⟩ := hf.imag imag him t ht
      refine ⟨writeField (fieldName pre description i d ++ "_real") d.components re ++
        (writeField (fieldName pre description i d ++ "_imag") d.components im ++ lines), de, ?_, fun fs0 => ?_⟩
      · simp only [writeFields, hr1, him, hi1, h1]
      · obtain ⟨b, hb⟩ := writeField_read P C p fs0 (fieldName pre description i d ++ "_real") hf.components re hr3
        obtain ⟨b', hb'⟩ := writeField_read P C p ((⟨p, fieldName pre description i d ++ "_real", re⟩, b) :: fs0)
          (fieldName pre description i d ++ "_imag") hf.components im hi3
        obtain ⟨fs, g1, g2, g3, g4⟩ := h2 ((⟨p, fieldName pre description i d ++ "_imag", im⟩, b') ::
          (⟨p, fieldName pre description i d ++ "_real", re⟩, b) :: fs0)
        refine ⟨(⟨p, fieldName pre description i d ++ "_real", re⟩, b) :: (⟨p, fieldName pre description i d ++ "_imag", im⟩, b') :: fs, ?_, ?_, ?_, ?_⟩
        · rw [lines_append, hb]
          show Reader.lines P C ⟨some p, _⟩ (_ ++ lines) = _
          rw [lines_append, hb']
          show Reader.lines P C ⟨some p, _⟩ lines = _
          rw [g1]; simp
        · simp only [List.map_cons, List.flatMap_cons, g2, Data.arrays, hr1, him]
          simp [hi1]
        · intro f hf
          rcases List.mem_cons.1 hf with rfl | hf
          · exact ⟨rfl, hr2⟩
          rcases List.mem_cons.1 hf with rfl | hf
          · exact ⟨rfl, hi2⟩
          · exact g3 f hf
        · intro h
          simp only [List.map_cons, defaultNames, him, g4 fun x hx => h x (by simp [hx]), hname h]
          simp

/-- The grid that is written is read. -/
theorem read_header (title : String) (time : F) (d : DataSet F) (rest : List (Line F)) :
    read (header title time d ++ rest) = (readData d.vertices.length d.elements.length ([] :: rest)).map fun fields =>
      ⟨title, time, d.vertices, d.elements, fields⟩ := by
  unfold header
  simp only [List.cons_append, List.append_assoc, read]
  simp only [and_self, if_true]
  rw [takeRows_map pointRow (fun p : P3 F => [.real p.x, .real p.y, .real p.z]) (fun _ => rfl)]
  simp only [readCells, and_self, if_true]
  rw [takeRows_map cellRow (fun e : Nat × Nat × Nat => [.int 3, .int e.1, .int e.2.1, .int e.2.2]) (fun _ => rfl)]
  simp only [readTypes, and_self, if_true]
  rw [takeRows_types]
  rfl

/-- A file that is written is read. -/
theorem writeTimeStep_read {d : DataSet F} (h : d.Fits) (fname : String) {t : Nat} (ht : t < d.timesteps.length) :
    ∃ file c, writeTimeStep fname d t = .ok file ∧ read file = some c ∧ SameData d t c ∧
      c.title = (if d.description = "" then "File Name: " ++ fname else rstrip d.description) ∧
      ((∀ x ∈ d.elementData, x.description = "") → (∀ x ∈ d.vertexData, x.description = "") →
        c.fields.map Field.name = defaultNames "cell_data_" 0 d.elementData ++ defaultNames "point_data_" 0 d.vertexData) := by
  set title := (if d.description = "" then "File Name: " ++ fname else rstrip d.description) with htitle
  obtain ⟨cl, de, hc1, hc2⟩ := writeFields_read d.vertices.length d.elements.length false "cell_data_" ht d.elementData h.cells title 0
  obtain ⟨pl, de', hp1, hp2⟩ := writeFields_read d.vertices.length d.elements.length true "point_data_" ht d.vertexData h.points de 0
  obtain ⟨fc, c1, c2, c3, c4⟩ := hc2 []
  obtain ⟨fp, p1, p2, p3, p4⟩ := hp2 (fc.reverse ++ [])
  have e1 : (⟨none, []⟩ : Reader F).lines d.vertices.length d.elements.length
      (if d.elementData = [] then [] else [.word "CELL_DATA", .int d.elements.length] :: cl) =
      some ⟨if d.elementData = [] then none else some false, fc.reverse ++ []⟩ := by
    split
    · rename_i he
      rw [he] at c2
      have : fc = [] := by simpa using c2
      subst this; rfl
    · simp only [Reader.lines, Reader.line, and_self, if_true]
      exact c1
  have e2 : ∀ pt : Option Bool, ∃ pt', (⟨pt, fc.reverse ++ []⟩ : Reader F).lines d.vertices.length d.elements.length
      (if d.vertexData = [] then [] else [.word "POINT_DATA", .int d.vertices.length] :: pl) =
      some ⟨pt', fp.reverse ++ (fc.reverse ++ [])⟩ := by
    intro pt
    split
    · rename_i he
      rw [he] at p2
      have : fp = [] := by simpa using p2
      subst this; exact ⟨pt, rfl⟩
    · refine ⟨some true, ?_⟩
      simp only [Reader.lines, Reader.line]
      rw [if_neg (by simp)]
      simp only [and_self, if_true]
      exact p1
  obtain ⟨pt', e2'⟩ := e2 (if d.elementData = [] then none else some false)
  have hdata : readData d.vertices.length d.elements.length ([] ::
      ((if d.elementData = [] then [] else [.word "CELL_DATA", .int d.elements.length] :: cl) ++
      (if d.vertexData = [] then [] else [.word "POINT_DATA", .int d.vertices.length] :: pl))) = some ((fc ++ fp).map Prod.fst) := by
    unfold readData
    have : (⟨none, []⟩ : Reader F).lines d.vertices.length d.elements.length ([] ::
      ((if d.elementData = [] then [] else [.word "CELL_DATA", .int d.elements.length] :: cl) ++
      (if d.vertexData = [] then [] else [.word "POINT_DATA", .int d.vertices.length] :: pl))) = some ⟨pt', fp.reverse ++ (fc.reverse ++ [])⟩ := by
      simp only [Reader.lines, Reader.line]
      rw [lines_append, e1]
      exact e2'
    rw [this]
    dsimp only
    rw [if_pos]
    · simp
    · rw [List.all_eq_true]
      intro f hf
      simp only [List.append_nil, List.mem_append, List.mem_reverse] at hf
      unfold Field.complete
      rcases hf with hf | hf
      · obtain ⟨h1, h2⟩ := p3 f hf
        rw [h1, h2]; simp
      · obtain ⟨h1, h2⟩ := c3 f hf
        rw [h1, h2]; simp
  refine ⟨header title d.timesteps[t] d ++
      ((if d.elementData = [] then [] else [.word "CELL_DATA", .int d.elements.length] :: cl) ++
      (if d.vertexData = [] then [] else [.word "POINT_DATA", .int d.vertices.length] :: pl)),
    ⟨title, d.timesteps[t], d.vertices, d.elements, (fc ++ fp).map Prod.fst⟩, ?_, ?_, ⟨?_, rfl, rfl, ?_⟩, rfl, ?_⟩
  · unfold writeTimeStep
    rw [List.getElem?_eq_getElem ht]
    dsimp only
    rw [← htitle, hc1]
    dsimp only
    rw [hp1]
  · rw [read_header, hdata]; rfl
  · exact List.getElem?_eq_getElem ht
  · simp only [List.map_append, List.map_map]
    exact congrArg₂ (· ++ ·) c2 p2
  · intro hc hp
    simp only [List.map_append, List.map_map]
    exact congrArg₂ (· ++ ·) (c4 hc) (p4 hp)

/-- **C124, partial.**  Exporting a data set writes one file for each time step, and reading the file gives the vertices, the triangles, the
time and the values of the real and imaginary parts on cells and points; the names are the default ones if the data have no descriptions. -/
theorem C124_round_trip_partial (stem : String) (d : DataSet F) (h : d.Fits) :
    ∃ files, exportDataSets stem [d] = .ok files ∧ files.length = d.timesteps.length ∧
      ∀ t < d.timesteps.length, ∃ file c, files[t]? = some (fileName stem d t, file) ∧ read file = some c ∧ SameData d t c ∧
        c.title = (if d.description = "" then "File Name: " ++ fileName stem d t else rstrip d.description) ∧
        ((∀ x ∈ d.elementData, x.description = "") → (∀ x ∈ d.vertexData, x.description = "") →
          c.fields.map Field.name = defaultNames "cell_data_" 0 d.elementData ++ defaultNames "point_data_" 0 d.vertexData) := by
  have key : ∀ ts : List Nat, (∀ t ∈ ts, t < d.timesteps.length) → ∃ files, stepLoop stem d ts = .ok files ∧ files.length = ts.length ∧
      ∀ (k t : Nat), ts[k]? = some t → ∃ file c, files[k]? = some (fileName stem d t, file) ∧ read file = some c ∧ SameData d t c ∧
        c.title = (if d.description = "" then "File Name: " ++ fileName stem d t else rstrip d.description) ∧
        ((∀ x ∈ d.elementData, x.description = "") → (∀ x ∈ d.vertexData, x.description = "") →
          c.fields.map Field.name = defaultNames "cell_data_" 0 d.elementData ++ defaultNames "point_data_" 0 d.vertexData) := by
    intro ts
    induction ts with
    | nil => intro _; exact ⟨[], rfl, rfl, fun k t hk => by simp at hk⟩
    | cons t0 ts ih =>
      intro hts
      obtain ⟨files, h1, h2, h3⟩ := ih fun t ht => hts t (by simp [ht])
      obtain ⟨file, c, g1, g2⟩ := writeTimeStep_read h (fileName stem d t0) (hts t0 (by simp))
      refine ⟨(fileName stem d t0, file) :: files, ?_, by simp [h2], fun k t hk => ?_⟩
      · simp only [stepLoop, g1, h1]
      · cases k with
        | zero =>
          simp only [List.getElem?_cons_zero, Option.some.injEq] at hk
          subst hk
          exact ⟨file, c, rfl, g2⟩
        | succ k => simpa using h3 k t (by simpa using hk)
  obtain ⟨files, h1, h2, h3⟩ := key (List.range d.timesteps.length) fun t ht => List.mem_range.1 ht
  exact ⟨files, h1, by simpa using h2, fun t ht => h3 t t (by rw [List.getElem?_range ht])⟩

/-- **C124 (file names).**  Different time steps go to different files. -/
theorem C124_file_names (stem : String) (d : DataSet F) {t t' : Nat} (ht : t < d.timesteps.length) (ht' : t' < d.timesteps.length)
    (h : fileName stem d t = fileName stem d t') : t = t' := by
  unfold fileName at h
  split at h
  · have h1 := congrArg String.toList h
    simp only [String.toList_append, List.append_cancel_right_eq, List.append_cancel_left_eq] at h1
    have h2 : toString t = toString t' := String.toList_inj.1 h1
    exact Nat.repr_inj.1 h2
  · omega

/-- **C124 (errors).**  If an array of a time step is missing, an exception is raised. -/
theorem C124_errors (stem : String) (d : DataSet F) {t : Nat} (ht : t < d.timesteps.length)
    (h : ∃ x ∈ d.elementData ++ d.vertexData, x.real.length ≤ t ∨ ∃ im, x.imag = some im ∧ im.length ≤ t) :
    exportDataSets stem [d] = .error .IndexError := by
  have fields : ∀ (pre : String) (ds : List (Data F)) (description : String) (i : Nat),
      (∃ x ∈ ds, x.real.length ≤ t ∨ ∃ im, x.imag = some im ∧ im.length ≤ t) → writeFields pre t description i ds = .error .IndexError := by
    intro pre ds
    induction ds with
    | nil => rintro _ _ ⟨x, hx, _⟩; exact absurd hx List.not_mem_nil
    | cons d ds ih =>
      rintro description i ⟨x, hx, hb⟩
      unfold writeFields
      dsimp only
      split
      · rfl
      · rename_i re hre
        have hlt : t < d.real.length := (List.getElem?_eq_some_iff.1 hre).1
        split
        · rename_i him
          have hx' : x ∈ ds := by
            rcases List.mem_cons.1 hx with rfl | h
            · rcases hb with hb | ⟨im, h1, _⟩
              · omega
              · rw [h1] at him; cases him
            · exact h
          rw [ih _ _ ⟨x, hx', hb⟩]
        · rename_i imag him
          split
          · rfl
          · rename_i im hh
            have hlt' : t < imag.length := (List.getElem?_eq_some_iff.1 hh).1
            have hx' : x ∈ ds := by
              rcases List.mem_cons.1 hx with rfl | h
              · rcases hb with hb | ⟨im', h1, h2⟩
                · omega
                · rw [h1] at him; cases him; omega
              · exact h
            rw [ih _ _ ⟨x, hx', hb⟩]
  have only : ∀ (pre : String) (t : Nat) (ds : List (Data F)) (description : String) (i : Nat) (e : Exn),
      writeFields pre t description i ds = .error e → e = .IndexError := by
    intro pre t ds
    induction ds with
    | nil => intro _ _ e h; cases h
    | cons d ds ih =>
      intro description i e h
      unfold writeFields at h
      dsimp only at h
      split at h
      · cases h; rfl
      · split at h
        · split at h
          · rename_i e' he; cases h; exact ih _ _ _ he
          · cases h
        · split at h
          · cases h; rfl
          · split at h
            · rename_i e' he; cases h; exact ih _ _ _ he
            · cases h
  have step : ∀ (fname : String) (t : Nat) (e : Exn), writeTimeStep fname d t = .error e → e = .IndexError := by
    intro fname t e h
    unfold writeTimeStep at h
    dsimp only at h
    split at h
    · cases h; rfl
    · split at h
      · rename_i e' he; cases h; exact only _ _ _ _ _ _ he
      · split at h
        · rename_i e' he; cases h; exact only _ _ _ _ _ _ he
        · cases h
  have bad : ∀ fname, writeTimeStep fname d t = .error .IndexError := by
    intro fname
    unfold writeTimeStep
    rw [List.getElem?_eq_getElem ht]
    dsimp only
    obtain ⟨x, hx, hb⟩ := h
    rcases List.mem_append.1 hx with hx | hx
    · rw [fields _ _ _ _ ⟨x, hx, hb⟩]
    · split
      · rename_i e he; rw [only _ _ _ _ _ _ he]
      · rw [fields _ _ _ _ ⟨x, hx, hb⟩]
  have loop : ∀ ts : List Nat, t ∈ ts → stepLoop stem d ts = .error .IndexError := by
    intro ts
    induction ts with
    | nil => intro h; exact absurd h List.not_mem_nil
    | cons t0 ts ih =>
      intro hm
      unfold stepLoop
      split
      · rename_i e he; rw [step _ _ _ he]
      · rename_i file hfile
        rcases List.mem_cons.1 hm with rfl | hm
        · rw [bad] at hfile; cases hfile
        · rw [ih hm]
  exact loop _ (List.mem_range.2 ht)

/-- One triangle with a value on it and three complex values at its vertices. -/
def sample (description a b : String) : DataSet Nat :=
  ⟨[⟨0, 0, 0⟩, ⟨1, 0, 0⟩, ⟨0, 1, 0⟩], [(0, 1, 2)], [⟨a, 1, [[[7]]], none⟩], [⟨b, 1, [[[1], [2], [3]]], some [[[4], [5], [6]]]⟩], description, [0]⟩

theorem sample_fits (description a b : String) : (sample description a b).Fits := by
  constructor <;> intro x hx <;> simp only [sample, List.mem_singleton] at hx <;> subst hx
  · refine ⟨Or.inl rfl, fun t ht => ?_, fun im h => by cases h⟩
    have : t = 0 := by simp [sample] at ht; omega
    subst this; exact ⟨_, rfl, rfl, by simp⟩
  · refine ⟨Or.inl rfl, fun t ht => ?_, fun im h t ht => ?_⟩
    · have : t = 0 := by simp [sample] at ht; omega
      subst this; exact ⟨_, rfl, rfl, by simp⟩
    · cases h
      have : t = 0 := by simp [sample] at ht; omega
      subst this; exact ⟨_, rfl, rfl, by simp⟩

/-- The file of the sample. -/
example : ∃ file c, exportDataSets "out" [sample "" "" ""] = .ok [("out.vtk", file)] ∧ read file = some c ∧
    c.fields.map Field.name = ["cell_data_0", "point_data_0_real", "point_data_0_imag"] ∧
    c.fields.map Field.rows = [[[7]], [[1], [2], [3]], [[4], [5], [6]]] := ⟨_, _, rfl, rfl, by decide +kernel, rfl⟩

/-- **C124, counterexample.**  If data have descriptions, the fields are named after the title of the file instead: two fields on the same
grid get the same name. -/
theorem C124_counterexample_names : ∃ (file : List (Line Nat)) (c : Contents Nat), exportDataSets "out" [⟨[⟨0, 0, 0⟩, ⟨1, 0, 0⟩, ⟨0, 1, 0⟩], [(0, 1, 2)],
      [⟨"pressure", 1, [[[7]]], none⟩, ⟨"flux", 1, [[[8]]], none⟩], [], "the title", [0]⟩] = .ok [("out.vtk", file)] ∧ read file = some c ∧
    c.fields.map Field.name = ["the_title", "the_title"] := ⟨_, _, rfl, rfl, by decide +kernel⟩

/-- **C124, counterexample.**  Data with two components are left out without an exception. -/
theorem C124_counterexample_components : ∃ (file : List (Line Nat)) (c : Contents Nat), exportDataSets "out" [⟨[⟨0, 0, 0⟩, ⟨1, 0, 0⟩, ⟨0, 1, 0⟩], [(0, 1, 2)],
      [⟨"", 2, [[[7, 8]]], none⟩], [], "", [0]⟩] = .ok [("out.vtk", file)] ∧ read file = some c ∧ c.fields = [] := ⟨_, _, rfl, rfl, rfl⟩

/-- **C124, counterexample.**  Several data sets cannot be exported: a `NameError`. -/
theorem C124_counterexample_several (stem : String) (d d' : DataSet F) (ds : List (DataSet F)) (h : d.timesteps ≠ []) :
    exportDataSets stem (d :: d' :: ds) = .error .NameError := by
  show (if ∃ x ∈ d :: d' :: ds, x.timesteps ≠ [] then _ else _) = _
  rw [if_pos ⟨d, by simp, h⟩]

/-- **C124, counterexample.**  Of a series for which no time steps are given only the first member is exported. -/
theorem C124_counterexample_series : ∃ (file : List (Line Nat)) (c : Contents Nat),
    exportDataSets "out" [⟨[⟨0, 0, 0⟩, ⟨1, 0, 0⟩, ⟨0, 1, 0⟩], [(0, 1, 2)], [⟨"", 1, [[[7]], [[8]], [[9]]], none⟩], [], "", defaultTimesteps 0⟩] =
      .ok [("out.vtk", file)] ∧ read file = some c ∧ c.fields.map Field.rows = [[[7]]] := ⟨_, _, rfl, rfl, rfl⟩

/-- Titles that are made from descriptions are the descriptions without the white space at their ends, and nothing else is removed. -/
theorem C124_stripped (s : String) :
    ∃ w, s.toList = (rstrip s).toList ++ w ∧ (∀ c ∈ w, c.isWhitespace) ∧ ∀ c, (rstrip s).toList.getLast? = some c → ¬ c.isWhitespace := by
  refine ⟨(s.toList.reverse.takeWhile Char.isWhitespace).reverse, ?_, ?_, ?_⟩
  · simp only [rstrip, String.toList_ofList]
    rw [← List.reverse_append, List.takeWhile_append_dropWhile, List.reverse_reverse]
  · intro c hc
    rw [List.mem_reverse] at hc
    exact List.all_eq_true.1 (List.all_takeWhile ..) c hc
  · intro c hc
    simp only [rstrip, String.toList_ofList, List.getLast?_reverse] at hc
    have := List.head?_dropWhile_not Char.isWhitespace s.toList.reverse
    rw [hc] at this
    simpa using this

end Verif.Vtk
