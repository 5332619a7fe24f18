import Verif.Lemmas.Json
import Mathlib.Algebra.Order.Floor.Semiring
import Mathlib.Data.Real.Archimedean
/-
C94: grids and data survive JSON files.
-/
namespace Verif.Json
open Verif.Gmsh (Bytes Exn)

/-- Base64 is lossless. -/
theorem C94_base64 (b : Bytes) (h : ∀ x ∈ b, x < 256) : b64decode (b64encode b) = some b := b64_roundtrip b h

/-- Line breaks and other characters outside the alphabet do not matter. -/
theorem C94_base64_noise (s s' : Bytes) (h : (s.filter fun c => c == 61 || (charValue c).isSome) = s'.filter fun c => c == 61 || (charValue c).isSome) :
    b64decode s = b64decode s' := by
  unfold b64decode
  rw [decodeAux_noise, h, ← decodeAux_noise]

/-- The text needs no escaping in JSON: it consists of letters, digits, `+`, `/` and `=`. -/
theorem C94_base64_text (b : Bytes) (h : ∀ x ∈ b, x < 256) : ∀ c ∈ b64encode b, c = 61 ∨ (charValue c).isSome = true := by
  induction b using b64encode.induct with
  | case1 a b c l ih =>
    have ha := h a (by simp)
    have hb := h b (by simp)
    have hc := h c (by simp)
    intro x hx
    rw [b64encode] at hx
    simp only [List.mem_cons] at hx
    rcases hx with rfl | rfl | rfl | rfl | hx
    · exact Or.inr (by rw [charValue_alphabet (by omega)]; rfl)
    · exact Or.inr (by rw [charValue_alphabet (by omega)]; rfl)
    · exact Or.inr (by rw [charValue_alphabet (by omega)]; rfl)
    · exact Or.inr (by rw [charValue_alphabet (by omega)]; rfl)
    · exact ih (fun y hy => h y (by simp [hy])) x hx
  | case2 a b =>
    have ha := h a (by simp)
    have hb := h b (by simp)
    intro x hx
    rw [b64encode] at hx
    simp only [List.mem_cons, List.not_mem_nil, or_false] at hx
    rcases hx with rfl | rfl | rfl | rfl
    · exact Or.inr (by rw [charValue_alphabet (by omega)]; rfl)
    · exact Or.inr (by rw [charValue_alphabet (by omega)]; rfl)
    · exact Or.inr (by rw [charValue_alphabet (by omega)]; rfl)
    · exact Or.inl rfl
  | case3 a =>
    have ha := h a (by simp)
    intro x hx
    rw [b64encode] at hx
    simp only [List.mem_cons, List.not_mem_nil, or_false] at hx
    rcases hx with rfl | rfl | rfl | rfl
    · exact Or.inr (by rw [charValue_alphabet (by omega)]; rfl)
    · exact Or.inr (by rw [charValue_alphabet (by omega)]; rfl)
    · exact Or.inl rfl
    · exact Or.inl rfl
  | case4 => exact fun x hx => absurd hx (by simp [b64encode])

/-- A grid comes back from its dictionary. -/
theorem C94_grid {F : Type} {t : DType F} {R : F → Prop} (ht : t.Lawful R) {g : Grid F} (hg : g.Valid R) : Grid.fromDict t (g.asDict t) = .ok g := by
  obtain ⟨h1, h2, h3, h4, h5, h6, s1, s2, s3, s4⟩ := hg
  unfold Grid.fromDict Grid.asDict
  dsimp only
  rw [matrix_ok ht.pos (fun r hr x hx => lawful_item ht (h6 r hr x hx)) h1, bind_ok, matrix_ok (by decide) (fun r hr x hx => uint32_item (s1 r hr x hx)) h2, bind_ok,
    vector_ok (by decide) (fun x hx => uint32_item (s2 x hx)) h3, bind_ok, vector_ok (by decide) (fun x hx => uint32_item (s3 x hx)) h4, bind_ok,
    vector_ok (by decide) (fun x hx => uint32_item (s4 x hx)) h5, bind_ok]
  unfold Grid.init
  simp only [Option.getD_some]
  rw [if_neg (by simp [h1.1]), if_neg (by simp [h2.1]), if_neg (by simp [h3]), if_neg (by simp [h5])]

/-- Real and complex data come back from their dictionaries. -/
theorem C94_data {t : DType Num} {R : Num → Prop} (ht : t.Lawful R) {d : Data} (hd : d.Valid R) : Data.fromDict t (d.asDict t) = .ok d := by
  obtain ⟨components, npoints, description, real, imag⟩ := d
  obtain ⟨h0, h2⟩ := hd
  dsimp only at h0 h2
  have h1 : ∀ a ∈ real, HasShape a components npoints := fun a ha => (h0 a ha).1
  cases imag with
  | none =>
    unfold Data.fromDict Data.asDict Data.isComplex
    simp only [Option.isSome_none, Bool.false_eq_true, if_false]
    rw [mapM'_map fun a ha => matrix_ok ht.pos (fun r hr x hx => lawful_item ht ((h0 a ha).2 r hr x hx)) (h1 a ha), bind_ok]
    unfold Data.ofReal
    rw [if_pos h1]
  | some im =>
    obtain ⟨hl, hne, h3⟩ := h2 im rfl
    unfold Data.fromDict Data.asDict Data.isComplex
    simp only [Option.isSome_some, if_true, Option.map_some, Option.getD_some]
    have hz : (real.map fun a => numpyToBase64 t a.flatten).zip (im.map fun a => numpyToBase64 t a.flatten) =
        (real.zip im).map fun p => (numpyToBase64 t p.1.flatten, numpyToBase64 t p.2.flatten) := by
      rw [List.zip_map]
      rfl
    have hmem : ∀ p ∈ real.zip im, p.1 ∈ real ∧ p.2 ∈ im := fun p hp => List.of_mem_zip (a := p.1) (b := p.2) hp
    have hm : mapM' (fun p : Bytes × Bytes => (do
        let a ← base64ToMatrix t p.1 components npoints
        let b ← base64ToMatrix t p.2 components npoints
        pure (a.zipWith (fun r s => r.zipWith Num.combine s) b) : Except Exn (List (List (Num × Num)))))
        ((real.zip im).map fun p => (numpyToBase64 t p.1.flatten, numpyToBase64 t p.2.flatten)) =
        .ok ((real.zip im).map fun p => p.1.zipWith (fun r s => r.zipWith Num.combine s) p.2) := by
      generalize real.zip im = l at hmem
      induction l with
      | nil => rfl
      | cons p l ih =>
        obtain ⟨hp1, hp2⟩ := hmem p (List.mem_cons_self ..)
        rw [List.map_cons, mapM']
        dsimp only
        rw [matrix_ok ht.pos (fun r hr x hx => lawful_item ht ((h0 _ hp1).2 r hr x hx)) (h1 _ hp1), bind_ok,
          matrix_ok ht.pos (fun r hr x hx => lawful_item ht ((h3 _ hp2).2 r hr x hx).1) (h3 _ hp2).1, bind_ok,
          pure_ok, bind_ok, ih fun q hq => hmem q (List.mem_cons_of_mem _ hq)]
        rfl
    rw [hz, hm, bind_ok]
    unfold Data.ofComplex
    have hsh : ∀ a ∈ (real.zip im).map (fun p => p.1.zipWith (fun r s => r.zipWith Num.combine s) p.2), HasShape a components npoints := by
      intro a ha
      obtain ⟨p, hp, rfl⟩ := List.mem_map.1 ha
      obtain ⟨hp1, hp2⟩ := hmem p hp
      exact zipWith_shape (h1 _ hp1) (h3 _ hp2).1
    have hpos := List.length_pos_of_ne_nil hne
    have hne' : (real.zip im).map (fun p => p.1.zipWith (fun r s => r.zipWith Num.combine s) p.2) ≠ [] := by
      intro h0
      have := congrArg List.length h0
      rw [List.length_map, List.length_zip, List.length_nil] at this
      omega
    have hb : ∀ p ∈ real.zip im, _ := fun p hp =>
      let h := hmem p hp
      zipWith_matrix (a := p.1) (b := p.2) (by rw [(h1 _ h.1).1, (h3 _ h.2).1.1]) (h1 _ h.1).2 (h3 _ h.2).1.2 fun r hr x hx => ((h3 _ h.2).2 r hr x hx).2
    rw [if_pos hsh, if_neg hne', List.map_map, List.map_map]
    have e1 : (real.zip im).map ((fun a => a.map fun r => r.map Prod.fst) ∘ fun p => p.1.zipWith (fun r s => r.zipWith Num.combine s) p.2) = real := by
      exact (List.map_congr_left fun p hp => (hb p hp).1).trans (List.map_fst_zip (by omega))
    have e2 : (real.zip im).map ((fun a => a.map fun r => r.map Prod.snd) ∘ fun p => p.1.zipWith (fun r s => r.zipWith Num.combine s) p.2) = im := by
      exact (List.map_congr_left fun p hp => (hb p hp).2).trans (List.map_snd_zip (by omega))
    rw [e1, e2]

theorem set_ok {t : DType Num} {R : Num → Prop} (ht : t.Lawful R) {d : DataSet} (hd : d.Valid R) : DataSet.fromDict t (d.asDict t) = .ok d := by
  unfold DataSet.fromDict DataSet.asDict
  dsimp only
  rw [C94_grid ht hd.grid, bind_ok, mapM'_map fun x hx => C94_data ht (hd.vertexData x hx), bind_ok,
    mapM'_map fun x hx => C94_data ht (hd.elementData x hx), bind_ok, vector_ok ht.pos (fun x hx => lawful_item ht (hd.timesteps x hx)) rfl, bind_ok]
  rfl

/-- Data sets with any number of grids and data come back from a file with what was exported. -/
theorem C94_sets {t : DType Num} {R : Num → Prop} (ht : t.Lawful R) {sets : List DataSet} (h : ∀ d ∈ sets, d.Valid R) {load loads : Bytes → Except Exn (List SetDict)}
    {file : Bytes} (hf : load file = .ok (exportDataSets t sets)) : importDataSets t load loads (some file) none = .ok sets := by
  unfold importDataSets
  dsimp only
  rw [hf, bind_ok]
  exact mapM'_map fun d hd => set_ok ht (h d hd)

/-- Different sets have different files: nothing is lost. -/
theorem C94_injective {t : DType Num} {R : Num → Prop} (ht : t.Lawful R) {sets sets' : List DataSet} (h : ∀ d ∈ sets, d.Valid R)
    (h' : ∀ d ∈ sets', d.Valid R)
    (he : exportDataSets t sets = exportDataSets t sets') : sets = sets' := by
  have h1 := C94_sets ht h (load := fun _ => .ok (exportDataSets t sets)) (loads := fun _ => .error .ValueError) (file := []) rfl
  have h2 := C94_sets ht h' (load := fun _ => .ok (exportDataSets t sets)) (loads := fun _ => .error .ValueError) (file := []) (by rw [he])
  rw [h1] at h2
  cases h2
  rfl

/-- A grid of two triangles is valid. -/
theorem C94_example_grid {F : Type} {t : DType F} {R : F → Prop} (ht : t.Lawful R) {x y : F} (hx : R x) (hy : R y) : let g : Grid F :=
    ⟨4, 2, [[x, y, x, y], [x, x, y, y], [x, x, x, x]], [[0, 2], [1, 1], [2, 3]], [10, 11, 12, 13], [5, 6], [], [7, 8]⟩
    g.Valid R ∧ Grid.fromDict t (g.asDict t) = .ok g := by
  intro g
  have hg : g.Valid R := ⟨⟨rfl, by simp [g]⟩, ⟨rfl, by simp [g]⟩, rfl, rfl, rfl, by simp [g, hx, hy], by simp [g], by simp [g], by simp [g], by simp [g]⟩
  exact ⟨hg, C94_grid ht hg⟩

/-- A type that represents the integers below 256 and an infinity. -/
noncomputable def sampleType : DType Num where
  size := 8
  pack x := match x with
    | .fin x => [⌊x⌋₊ % 256, 0, 0, 0, 0, 0, 0, 0]
    | _ => [0, 0, 0, 0, 0, 0, 240, 127]
  unpack b := if b.getD 7 0 = 127 then .inf false else .fin (b.getD 0 0)

/-- The hypotheses are satisfiable: a grid with real and complex data comes back. -/
theorem C94_example : ∃ (R : Num → Prop) (d : DataSet), sampleType.Lawful R ∧ R (.inf false) ∧ d.Valid R ∧ d.elementData.length = 2 ∧
    importDataSets sampleType (fun _ => .ok (exportDataSets sampleType [d])) (fun _ => .error .TypeError) (some []) none = .ok [d] := by
  have hl : sampleType.Lawful (fun x => x = .inf false ∨ ∃ n : Nat, n < 256 ∧ x = .fin n) := by
    refine ⟨by simp [sampleType], ?_, ?_, ?_⟩
    · rintro x (rfl | ⟨n, hn, rfl⟩) <;> rfl
    · rintro x (rfl | ⟨n, hn, rfl⟩) b hb
      · simp only [sampleType, List.mem_cons, List.not_mem_nil, or_false] at hb
        omega
      · simp only [sampleType, Nat.floor_natCast, List.mem_cons, List.not_mem_nil, or_false] at hb
        omega
    · rintro x (rfl | ⟨n, hn, rfl⟩)
      · rfl
      · simp only [sampleType, Nat.floor_natCast]
        rw [if_neg (by simp), List.getD_cons_zero, Nat.mod_eq_of_lt hn]
  have h0 : (fun x => x = Num.inf false ∨ ∃ n : Nat, n < 256 ∧ x = .fin n) (Num.fin 0) := Or.inr ⟨0, by norm_num, by simp⟩
  have h1 : (fun x => x = Num.inf false ∨ ∃ n : Nat, n < 256 ∧ x = .fin n) (Num.fin 1) := Or.inr ⟨1, by norm_num, by simp⟩
  have hi : (fun x => x = Num.inf false ∨ ∃ n : Nat, n < 256 ∧ x = .fin n) (Num.inf false) := Or.inl rfl
  generalize hR : (fun x => x = Num.inf false ∨ ∃ n : Nat, n < 256 ∧ x = .fin n) = R at hl
  replace h0 : R (Num.fin 0) := by rw [← hR]; exact h0
  replace h1 : R (Num.fin 1) := by rw [← hR]; exact h1
  replace hi : R (Num.inf false) := by rw [← hR]; exact hi
  have hd : DataSet.Valid R ⟨⟨3, 1, [[.fin 0, .fin 1, .fin 0], [.fin 0, .fin 0, .fin 1], [.fin 0, .fin 0, .fin 0]], [[0], [1], [2]], [0, 1, 2], [0], [], [0]⟩,
      [⟨1, 1, [], [[[.inf false]]], none⟩, ⟨1, 1, [], [[[.inf false]]], some [[[.fin 1]]]⟩], [], [], [.fin 0]⟩ := by
    refine ⟨⟨⟨rfl, by simp⟩, ⟨rfl, by simp⟩, rfl, rfl, rfl, by simp [h0, h1], by simp, by simp, by simp, by simp⟩, ?_, by simp, by simp [h0]⟩
    intro x hx
    simp only [List.mem_cons, List.not_mem_nil, or_false] at hx
    rcases hx with rfl | rfl
    · exact ⟨by simp [HasShape, hi], by simp⟩
    · exact ⟨by simp [HasShape, hi], by simp [HasShape, h1, Num.IsFinite]⟩
  exact ⟨R, _, hl, hi, hd, rfl, C94_sets hl (fun d h => by rw [List.mem_singleton.1 h]; exact hd) rfl⟩

/-- The bytes of "Man" and "Ma" are the standard ones. -/
theorem C94_example_base64 : b64encode (Verif.Gmsh.ascii "Man") = Verif.Gmsh.ascii "TWFu" ∧ b64encode (Verif.Gmsh.ascii "Ma") = Verif.Gmsh.ascii "TWE=" ∧
    b64decode (Verif.Gmsh.ascii "TW\nE=") = some (Verif.Gmsh.ascii "Ma") := by decide

/-- Complex data without arrays comes back as real data. -/
theorem C94_counterexample_empty (t : DType Num) (components npoints : Nat) (description : Bytes) :
    ∃ d', Data.fromDict t (Data.asDict t ⟨components, npoints, description, [], some []⟩) = .ok d' ∧ d'.isComplex = false := by
  refine ⟨⟨components, npoints, description, [], none⟩, ?_, rfl⟩
  unfold Data.fromDict Data.asDict Data.isComplex Data.ofComplex
  simp [mapM', bind_ok]

/-- An infinite imaginary part destroys the real part. -/
theorem C94_counterexample_infinite {t : DType Num} {R : Num → Prop} (ht : t.Lawful R) (h1 : R (.fin 1)) (h2 : R (.inf false)) :
    ∃ d', Data.fromDict t (Data.asDict t ⟨1, 1, [], [[[.fin 1]]], some [[[.inf false]]]⟩) = .ok d' ∧ d'.real = [[[.nan]]] := by
  refine ⟨⟨1, 1, [], [[[.nan]]], some [[[.inf false]]]⟩, ?_, rfl⟩
  unfold Data.fromDict Data.asDict Data.isComplex
  simp only [Option.isSome_some, if_true, Option.map_some, Option.getD_some, List.map_cons, List.map_nil, List.zip_cons_cons, List.zip_nil_left, mapM']
  have hm : ∀ x : Num, R x → base64ToMatrix t (numpyToBase64 t [[x]].flatten) 1 1 = .ok [[x]] := fun x hx =>
    matrix_ok ht.pos (fun r hr y hy => lawful_item ht (by rw [List.mem_singleton.1 hr] at hy; rw [List.mem_singleton.1 hy]; exact hx)) ⟨rfl, by simp⟩
  rw [hm _ h1, hm _ h2]
  simp [bind_ok, pure_ok, Data.ofComplex, HasShape, Num.combine, Num.mul, Num.add, Num.neg]

/-- Element numbers of the wrong length are accepted by the constructor and by the exporter, but the file cannot be read. -/
theorem C94_counterexample_element_ids {F : Type} {t : DType F} {R : F → Prop} (ht : t.Lawful R) {x : F} (hx : R x) : ∃ g : Grid F,
    Grid.init 3 1 [[x, x, x], [x, x, x], [x, x, x]] [[0], [1], [2]] none (some [7, 8]) [] none = .ok g ∧ Grid.fromDict t (g.asDict t) = .error .ValueError := by
  refine ⟨_, rfl, ?_⟩
  unfold Grid.fromDict Grid.asDict
  dsimp only
  have h1 : base64ToMatrix t (numpyToBase64 t [[x, x, x], [x, x, x], [x, x, x]].flatten) 3 3 = .ok [[x, x, x], [x, x, x], [x, x, x]] :=
    matrix_ok ht.pos (fun r hr y hy => lawful_item ht (by
      have hr' : r = [x, x, x] := by simpa using hr
      have hy' : y = x := by simpa [hr'] using hy
      rw [hy']; exact hx)) ⟨rfl, by simp⟩
  have h2 : base64ToMatrix uint32 (numpyToBase64 uint32 [[0], [1], [2]].flatten) 3 1 = .ok [[0], [1], [2]] :=
    matrix_ok (by decide) (fun r hr x hx => uint32_item (by
      simp only [List.mem_cons, List.not_mem_nil, or_false] at hr
      rcases hr with rfl | rfl | rfl <;> · rw [List.mem_singleton.1 hx]; norm_num)) ⟨rfl, by simp⟩
  have h3 : base64ToVector uint32 (numpyToBase64 uint32 ((none : Option (List Nat)).getD (List.range 3))) 3 = .ok (List.range 3) :=
    vector_ok (by decide) (fun x hx => uint32_item (by have := List.mem_range.1 hx; omega)) (by simp)
  rw [h1, bind_ok, h2, bind_ok, h3, bind_ok]
  unfold base64ToVector
  rw [fromBuffer_ok _ (by decide) fun x hx => uint32_item (by
    simp only [Option.getD_some, List.mem_cons, List.not_mem_nil, or_false] at hx
    rcases hx with rfl | rfl <;> norm_num)]
  rfl

/-- `import_data_sets(data_string=...)` always fails. -/
theorem C94_counterexample_data_string (t : DType Num) (load loads : Bytes → Except Exn (List SetDict)) (s : Bytes) :
    importDataSets t load loads none (some s) = .error .TypeError := rfl

end Verif.Json
