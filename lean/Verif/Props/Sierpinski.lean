import Verif.Lemmas.Sierpinski

/-!
# C100: the Sierpinski pyramid and triangle
-/

noncomputable section

namespace Verif.Shapes

/-- `sierpinski_pyramid(h, level)` refuses levels below 1.  For every other level the geometry is
well formed (numbers unique, everything declared before its use, loops closed); its surfaces are, in
order, the four sides of the `4^level` tetrahedra into which the maps "half way to corner `i`" take the
regular tetrahedron; points are shared where tetrahedra touch and are never duplicated; there are
`2·4^level + 2` of them; the surface is closed and consistently oriented. -/
theorem C100_pyramid (h : ℝ) (level : ℤ) :
    (level < 1 → sierpinskiPyramid h level = .error .ValueError) ∧
    (1 ≤ level → ∃ g faces, sierpinskiPyramid h level = .ok ⟨h, g⟩ ∧
      WellNumbered g ∧ InOrder [] g ∧
      Draws g faces ∧
      Places g faces ((words 4 level.toNat).flatMap fun w =>
        tetraFaces fun k => image pyramidCorners w (pyramidCorners k)) ∧
      ClosedSurface faces ∧
      SharesPoints g ∧
      pointNumbers g = List.range' 1 (2 * 4 ^ level.toNat + 2) ∧
      (lineNumbers g).length = 6 * 4 ^ level.toNat) := by
  refine ⟨fun hl => by unfold sierpinskiPyramid; rw [if_pos hl], fun hl => ?_⟩
  obtain ⟨points, cells, B, hrun, L⟩ :=
    pyrLevels_spec level.toNat (level_zero pyramidCorners pyramidBase_eq)
  rw [Nat.zero_add] at L
  generalize hn : level.toNat = n at *
  have hcells : ∀ k, ∀ t ∈ cells, (tetraStmts k t : Except Exn (List (Stmt V3)))
      = .ok (tetraBlock k (t.getD 0 0) (t.getD 1 0) (t.getD 2 0) (t.getD 3 0)) := by
    intro k t ht
    rw [L.cells] at ht
    obtain ⟨c, -, rfl⟩ := List.mem_map.1 ht
    rfl
  have hstm := cellStmts_eq hcells 0
  set block : List ℕ × ℕ → List (Stmt V3) := fun q =>
    tetraBlock q.2 (q.1.getD 0 0) (q.1.getD 1 0) (q.1.getD 2 0) (q.1.getD 3 0) with hblock
  have hlen : cells.length = 4 ^ n := by rw [L.cells, List.length_map, length_corners]
  have hB : B.length = 2 * 4 ^ n + 2 := by rw [L.length, vertexCount_four]
  have hpl : points.length = 2 * 4 ^ n + 2 := by rw [L.points, List.length_map, hB]
  set g := pointStmts id points ++ cells.zipIdx.flatMap block with hg
  -- the numbers
  have np : pointNumbers g = List.range' 1 (2 * 4 ^ n + 2) := by
    rw [hg, pointNumbers_append, pointNumbers_pointStmts, pointNumbers_flatMap, hpl]
    have : ∀ l : List (List ℕ × ℕ), (l.flatMap fun c => pointNumbers (block c)) = [] := by
      intro l
      rw [List.flatMap_eq_nil_iff]
      intro q _
      rfl
    rw [this, List.append_nil]
  have nl : lineNumbers g = List.range' 1 (6 * 4 ^ n) := by
    rw [hg, lineNumbers_append, lineNumbers_pointStmts, lineNumbers_flatMap, List.nil_append]
    have := block_numbers cells 6 1 0
    rw [hlen] at this
    exact this
  have nloop : loopNumbers g = List.range' 1 (4 * 4 ^ n) := by
    rw [hg, loopNumbers_append, loopNumbers_pointStmts, loopNumbers_flatMap, List.nil_append]
    have := block_numbers cells 4 1 0
    rw [hlen] at this
    exact this
  have ns : surfaceNumbers g = List.range' 1 (4 * 4 ^ n) := by
    rw [hg, surfaceNumbers_append, surfaceNumbers_pointStmts, surfaceNumbers_flatMap, List.nil_append]
    have := block_numbers cells 4 1 0
    rw [hlen] at this
    exact this
  refine ⟨g, cells.flatMap fun t =>
      tetraFaces ![1 + t.getD 0 0, 1 + t.getD 1 0, 1 + t.getD 2 0, 1 + t.getD 3 0],
    ?_, ?_, ?_, ?_, ?_, ?_, ?_, np, ?_⟩
  · unfold sierpinskiPyramid
    rw [if_neg (by omega), hn]
    rw [show ([[0, 1, 2, 3]] : List (List ℕ)) = [List.range 4] from rfl, hrun]
    simp only [Except.bind]
    rw [hstm]
  · refine ⟨?_, ?_, ?_, ?_, ?_⟩
    · rw [np]; exact List.nodup_range'
    · rw [nl]; exact List.nodup_range'
    · rw [nloop]; exact List.nodup_range'
    · rw [ns]; exact List.nodup_range'
    · intro k hk
      rw [nl, List.mem_range'_1] at hk
      omega
  · rw [hg, inOrder_append]
    refine ⟨inOrder_pointStmts .., ?_⟩
    refine inOrder_flatMap _ _ (pointNumbers (pointStmts id points)) ?_ _ (fun k hk => hk)
    rintro ⟨t, k⟩ hq b hb
    have ht : t ∈ cells := (List.mem_zipIdx' hq).2 ▸ List.getElem_mem ..
    rw [L.cells] at ht
    obtain ⟨c, hc, rfl⟩ := List.mem_map.1 ht
    exact tetraBlock_inOrder (hb _ (number_at L id hc 0)) (hb _ (number_at L id hc 1))
      (hb _ (number_at L id hc 2)) (hb _ (number_at L id hc 3))
      (numbers_ne L hc (by decide)) (numbers_ne L hc (by decide)) (numbers_ne L hc (by decide))
      (numbers_ne L hc (by decide)) (numbers_ne L hc (by decide)) (numbers_ne L hc (by decide))
  · unfold Draws
    rw [← zipIdx_flatMap_fst cells 0]
    have : surfaceNumbers g = cells.zipIdx.flatMap fun q => surfaceNumbers (block q) := by
      rw [hg, surfaceNumbers_append, surfaceNumbers_pointStmts, surfaceNumbers_flatMap, List.nil_append]
    rw [this]
    refine forall₂_flatMap fun q hq => ?_
    refine (tetraBlock_bounds _ _ _ _ _).imp fun _ _ => Bounds.mono fun s hs => ?_
    exact List.mem_append_right _ (List.mem_flatMap.2 ⟨q, hq, hs⟩)
  · unfold Places
    rw [L.cells, corners_words, List.map_map, List.flatMap_map]
    refine forall₂_flatMap fun w hw => ?_
    have at' : ∀ k, Stmt.point (1 + B.idxOf (cornerOf w + unit k)) (image pyramidCorners w (pyramidCorners k)) ∈ g :=
      fun k => vertex_at L id _ hw k
    exact .cons (.cons (at' 0) (.cons (at' 1) (.cons (at' 2) .nil)))
      (.cons (.cons (at' 0) (.cons (at' 2) (.cons (at' 3) .nil)))
      (.cons (.cons (at' 0) (.cons (at' 3) (.cons (at' 1) .nil)))
      (.cons (.cons (at' 3) (.cons (at' 2) (.cons (at' 1) .nil))) .nil)))
  · have hs : (cells.flatMap fun t =>
        tetraFaces ![1 + t.getD 0 0, 1 + t.getD 1 0, 1 + t.getD 2 0, 1 + t.getD 3 0]).flatMap sides
        = (corners 4 n).flatMap fun c =>
          ([(0, 1), (1, 2), (2, 0), (0, 2), (2, 3), (3, 0), (0, 3), (3, 1), (1, 0), (3, 2), (2, 1), (1, 3)]
            : List (Fin 4 × Fin 4)).map fun e =>
              (1 + B.idxOf (c + unit e.1), 1 + B.idxOf (c + unit e.2)) := by
      rw [List.flatMap_assoc, L.cells, List.flatMap_map]
      rfl
    have hne : ∀ e ∈ ([(0, 1), (1, 2), (2, 0), (0, 2), (2, 3), (3, 0), (0, 3), (3, 1), (1, 0), (3, 2), (2, 1), (1, 3)]
            : List (Fin 4 × Fin 4)), e.1 ≠ e.2 := by decide
    have hsw : ∀ e ∈ ([(0, 1), (1, 2), (2, 0), (0, 2), (2, 3), (3, 0), (0, 3), (3, 1), (1, 0), (3, 2), (2, 1), (1, 3)]
            : List (Fin 4 × Fin 4)), e.swap ∈ ([(0, 1), (1, 2), (2, 0), (0, 2), (2, 3), (3, 0), (0, 3), (3, 1), (1, 0), (3, 2), (2, 1), (1, 3)]
            : List (Fin 4 × Fin 4)) := by decide
    have hnd : ([(0, 1), (1, 2), (2, 0), (0, 2), (2, 3), (3, 0), (0, 3), (3, 1), (1, 0), (3, 2), (2, 1), (1, 3)]
            : List (Fin 4 × Fin 4)).Nodup := by decide
    generalize ([(0, 1), (1, 2), (2, 0), (0, 2), (2, 3), (3, 0), (0, 3), (3, 1), (1, 0), (3, 2), (2, 1), (1, 3)]
            : List (Fin 4 × Fin 4)) = E at *
    constructor
    · rw [hs]
      refine List.nodup_flatMap.2 ⟨fun c hc => ?_, ?_⟩
      · refine hnd.map_on ?_
        intro e he e' he' h
        obtain ⟨-, h1, h2⟩ := edge_numbers L hc hc (hne e he) (hne e' he')
          (congrArg Prod.fst h) (congrArg Prod.snd h)
        exact Prod.ext h1 h2
      · refine List.Pairwise.imp_of_mem ?_ (corners_nodup 4 n)
        intro c c' hc hc' hcc x hx hx'
        obtain ⟨e, he, rfl⟩ := List.mem_map.1 hx
        obtain ⟨e', he', h⟩ := List.mem_map.1 hx'
        exact hcc (edge_numbers L hc' hc (hne e' he') (hne e he)
          (congrArg Prod.fst h) (congrArg Prod.snd h)).1.symm
    · rw [hs]
      intro x hx
      obtain ⟨c, hc, hx⟩ := List.mem_flatMap.1 hx
      obtain ⟨e, he, rfl⟩ := List.mem_map.1 hx
      exact List.mem_flatMap.2 ⟨c, hc, List.mem_map.2 ⟨e.swap, hsw e he, rfl⟩⟩
  · refine sharesPoints pyramid_independent L Function.injective_id ?_
    intro k p hk
    obtain ⟨q, -, hq⟩ := List.mem_flatMap.1 hk
    simp [hblock, tetraBlock] at hq
  · rw [nl, List.length_range']

/-- The four sides of every one of these tetrahedra are oriented outwards: the fourth corner lies
behind each side. -/
theorem C100_outward (w : List (Fin 4)) :
    let p := fun k => image pyramidCorners w (pyramidCorners k)
    Behind (p 0) (p 1) (p 2) (p 3) ∧ Behind (p 0) (p 2) (p 3) (p 1) ∧
    Behind (p 0) (p 3) (p 1) (p 2) ∧ Behind (p 3) (p 2) (p 1) (p 0) := by
  obtain ⟨h3, p3, h6, p6, -, -⟩ := sqrt_facts
  have hd : ∀ a b k : Fin 4, ∀ r, image pyramidCorners w (pyramidCorners a) r
      - image pyramidCorners w (pyramidCorners b) r
      = (pyramidCorners a r - pyramidCorners b r) / 2 ^ w.length := by
    intro a b k r
    rw [image_eq, image_eq]
    ring
  have hpos : (0 : ℝ) < 2 ^ w.length := by positivity
  have hdet : ∀ a b c x : Fin 4,
      det3 (pyramidCorners b - pyramidCorners a) (pyramidCorners c - pyramidCorners a)
        (pyramidCorners x - pyramidCorners a) < 0 →
      Behind (image pyramidCorners w (pyramidCorners a)) (image pyramidCorners w (pyramidCorners b))
        (image pyramidCorners w (pyramidCorners c)) (image pyramidCorners w (pyramidCorners x)) := by
    intro a b c x h
    unfold Behind
    have : det3 (image pyramidCorners w (pyramidCorners b) - image pyramidCorners w (pyramidCorners a))
        (image pyramidCorners w (pyramidCorners c) - image pyramidCorners w (pyramidCorners a))
        (image pyramidCorners w (pyramidCorners x) - image pyramidCorners w (pyramidCorners a))
        = det3 (pyramidCorners b - pyramidCorners a) (pyramidCorners c - pyramidCorners a)
          (pyramidCorners x - pyramidCorners a) / (2 ^ w.length) ^ 3 := by
      unfold det3
      simp only [Pi.sub_apply, hd _ _ 0]
      field_simp
    rw [this]
    exact div_neg_of_neg_of_pos h (by positivity)
  have hp : 0 < √3 * √6 := mul_pos p3 p6
  refine ⟨hdet 0 1 2 3 ?_, hdet 0 2 3 1 ?_, hdet 0 3 1 2 ?_, hdet 3 2 1 0 ?_⟩ <;>
  · simp only [det3, Pi.sub_apply, pyramidCorners, Matrix.cons_val, Matrix.cons_val_zero, Matrix.cons_val_one]
    nlinarith

/-- All words of a length, each once: `m^n` of them. -/
theorem C100_words (m n : ℕ) :
    (words m n).Nodup ∧ (words m n).length = m ^ n ∧ ∀ w, w ∈ words m n ↔ w.length = n :=
  ⟨words_nodup m n, words_length m n, mem_words m n⟩

/-- `sierpinski_triangle(h, level)`: the same for the triangle; elements are at most
`2^-(level+1)` in size; there are `(3^(level+1) + 3)/2` points; all triangles are passed
counterclockwise; no two of them have a side in common. -/
theorem C100_triangle (h : ℝ) (level : ℤ) :
    (level < 1 → sierpinskiTriangle h level = .error .ValueError) ∧
    (1 ≤ level → ∃ g faces, sierpinskiTriangle h level = .ok ⟨min ((1 / 2) ^ (level + 1)) h, g⟩ ∧
      WellNumbered g ∧ InOrder [] g ∧
      Draws g faces ∧
      Places g faces ((words 3 level.toNat).map fun w =>
        [0, 1, 2].map fun k => lift2 (image triangleCorners w (triangleCorners k))) ∧
      (faces.flatMap sides).Nodup ∧ (∀ e ∈ faces.flatMap sides, e.swap ∉ faces.flatMap sides) ∧
      SharesPoints g ∧
      2 * (pointNumbers g).length = 3 ^ (level.toNat + 1) + 3) := by
  refine ⟨fun hl => by unfold sierpinskiTriangle; rw [if_pos hl], fun hl => ?_⟩
  obtain ⟨points, cells, B, hrun, L⟩ :=
    triLevels_spec level.toNat (level_zero triangleCorners triangleBase_eq)
  rw [Nat.zero_add] at L
  generalize hn : level.toNat = n at *
  have hcells : ∀ k, ∀ t ∈ cells, (triStmts k t : Except Exn (List (Stmt V3)))
      = .ok (triBlock k (t.getD 0 0) (t.getD 1 0) (t.getD 2 0)) := by
    intro k t ht
    rw [L.cells] at ht
    obtain ⟨c, -, rfl⟩ := List.mem_map.1 ht
    rfl
  have hstm := cellStmts_eq hcells 0
  set block : List ℕ × ℕ → List (Stmt V3) := fun q =>
    triBlock q.2 (q.1.getD 0 0) (q.1.getD 1 0) (q.1.getD 2 0) with hblock
  have hlen : cells.length = 3 ^ n := by rw [L.cells, List.length_map, length_corners]
  have hpl : points.length = vertexCount 3 n := by rw [L.points, List.length_map, L.length]
  set g := pointStmts lift2 points ++ cells.zipIdx.flatMap block with hg
  have np : pointNumbers g = List.range' 1 (vertexCount 3 n) := by
    rw [hg, pointNumbers_append, pointNumbers_pointStmts, pointNumbers_flatMap, hpl]
    have : ∀ l : List (List ℕ × ℕ), (l.flatMap fun c => pointNumbers (block c)) = [] := by
      intro l
      rw [List.flatMap_eq_nil_iff]
      intro q _
      rfl
    rw [this, List.append_nil]
  have nl : lineNumbers g = List.range' 1 (3 * 3 ^ n) := by
    rw [hg, lineNumbers_append, lineNumbers_pointStmts, lineNumbers_flatMap, List.nil_append]
    have := block_numbers cells 3 1 0
    rw [hlen] at this
    exact this
  have one : ∀ k, [1 + k] = (List.range 1).map fun j => 1 + 1 * k + j := by
    intro k
    simp
  have nloop : loopNumbers g = List.range' 1 (1 * 3 ^ n) := by
    rw [hg, loopNumbers_append, loopNumbers_pointStmts, loopNumbers_flatMap, List.nil_append]
    have := block_numbers cells 1 1 0
    rw [hlen] at this
    rw [← show (1 : ℕ) + 1 * 0 = 1 from rfl, ← this]
    exact List.flatMap_congr fun q _ => one q.2
  have ns : surfaceNumbers g = List.range' 1 (1 * 3 ^ n) := by
    rw [hg, surfaceNumbers_append, surfaceNumbers_pointStmts, surfaceNumbers_flatMap, List.nil_append]
    have := block_numbers cells 1 1 0
    rw [hlen] at this
    rw [← show (1 : ℕ) + 1 * 0 = 1 from rfl, ← this]
    exact List.flatMap_congr fun q _ => one q.2
  have hs : (cells.flatMap fun t =>
      [[1 + t.getD 0 0, 1 + t.getD 1 0, 1 + t.getD 2 0]]).flatMap sides
      = (corners 3 n).flatMap fun c =>
        ([(0, 1), (1, 2), (2, 0)] : List (Fin 3 × Fin 3)).map fun e =>
            (1 + B.idxOf (c + unit e.1), 1 + B.idxOf (c + unit e.2)) := by
    rw [List.flatMap_assoc, L.cells, List.flatMap_map]
    rfl
  have hne : ∀ e ∈ ([(0, 1), (1, 2), (2, 0)] : List (Fin 3 × Fin 3)), e.1 ≠ e.2 := by decide
  refine ⟨g, cells.flatMap fun t => [[1 + t.getD 0 0, 1 + t.getD 1 0, 1 + t.getD 2 0]],
    ?_, ?_, ?_, ?_, ?_, ?_, ?_, ?_, ?_⟩
  · unfold sierpinskiTriangle
    rw [if_neg (by omega), hn]
    rw [show ([[0, 1, 2]] : List (List ℕ)) = [List.range 3] from rfl, hrun]
    simp only [Except.bind]
    rw [hstm]
    unfold fineSize
    rw [show (0.5 : ℝ) = 1 / 2 by norm_num]
  · refine ⟨?_, ?_, ?_, ?_, ?_⟩
    · rw [np]; exact List.nodup_range'
    · rw [nl]; exact List.nodup_range'
    · rw [nloop]; exact List.nodup_range'
    · rw [ns]; exact List.nodup_range'
    · intro k hk
      rw [nl, List.mem_range'_1] at hk
      omega
  · rw [hg, inOrder_append]
    refine ⟨inOrder_pointStmts .., ?_⟩
    refine inOrder_flatMap _ _ (pointNumbers (pointStmts lift2 points)) ?_ _ (fun k hk => hk)
    rintro ⟨t, k⟩ hq b hb
    have ht : t ∈ cells := (List.mem_zipIdx' hq).2 ▸ List.getElem_mem ..
    rw [L.cells] at ht
    obtain ⟨c, hc, rfl⟩ := List.mem_map.1 ht
    exact triBlock_inOrder (hb _ (number_at L lift2 hc 0)) (hb _ (number_at L lift2 hc 1))
      (hb _ (number_at L lift2 hc 2))
      (numbers_ne L hc (by decide)) (numbers_ne L hc (by decide)) (numbers_ne L hc (by decide))
  · unfold Draws
    rw [← zipIdx_flatMap_fst cells 0]
    have : surfaceNumbers g = cells.zipIdx.flatMap fun q => surfaceNumbers (block q) := by
      rw [hg, surfaceNumbers_append, surfaceNumbers_pointStmts, surfaceNumbers_flatMap, List.nil_append]
    rw [this]
    refine forall₂_flatMap fun q hq => ?_
    refine (triBlock_bounds _ _ _ _).imp fun _ _ => Bounds.mono fun s hs => ?_
    exact List.mem_append_right _ (List.mem_flatMap.2 ⟨q, hq, hs⟩)
  · unfold Places
    rw [L.cells, corners_words, List.map_map, List.flatMap_map, List.map_eq_flatMap]
    refine forall₂_flatMap fun w hw => ?_
    have at' : ∀ k, Stmt.point (1 + B.idxOf (cornerOf w + unit k))
        (lift2 (image triangleCorners w (triangleCorners k))) ∈ g :=
      fun k => vertex_at L lift2 _ hw k
    exact .cons (.cons (at' 0) (.cons (at' 1) (.cons (at' 2) .nil))) .nil
  · rw [hs]
    refine List.nodup_flatMap.2 ⟨fun c hc => ?_, ?_⟩
    · refine List.Nodup.map_on ?_ (by decide)
      intro e he e' he' h
      obtain ⟨-, h1, h2⟩ := edge_numbers L hc hc (hne e he) (hne e' he')
        (congrArg Prod.fst h) (congrArg Prod.snd h)
      exact Prod.ext h1 h2
    · refine List.Pairwise.imp_of_mem ?_ (corners_nodup 3 n)
      intro c c' hc hc' hcc x hx hx'
      obtain ⟨e, he, rfl⟩ := List.mem_map.1 hx
      obtain ⟨e', he', h⟩ := List.mem_map.1 hx'
      exact hcc (edge_numbers L hc' hc (hne e' he') (hne e he)
        (congrArg Prod.fst h) (congrArg Prod.snd h)).1.symm
  · rw [hs]
    intro x hx hx'
    obtain ⟨c, hc, hx⟩ := List.mem_flatMap.1 hx
    obtain ⟨e, he, rfl⟩ := List.mem_map.1 hx
    obtain ⟨c', hc', hx'⟩ := List.mem_flatMap.1 hx'
    obtain ⟨e', he', h⟩ := List.mem_map.1 hx'
    obtain ⟨-, h1, h2⟩ := edge_numbers L hc' hc (hne e' he') (Ne.symm (hne e he))
      (congrArg Prod.fst h) (congrArg Prod.snd h)
    have key : ∀ e ∈ ([(0, 1), (1, 2), (2, 0)] : List (Fin 3 × Fin 3)),
      ∀ e' ∈ ([(0, 1), (1, 2), (2, 0)] : List (Fin 3 × Fin 3)), e'.1 = e.2 → e'.2 ≠ e.1 := by decide
    exact key e he e' he' h1 h2
  · refine sharesPoints triangle_independent L lift2_injective ?_
    intro k p hk
    obtain ⟨q, -, hq⟩ := List.mem_flatMap.1 hk
    simp [hblock, triBlock] at hq
  · rw [np, List.length_range', vertexCount_three]

/-- Every one of these triangles is passed counterclockwise. -/
theorem C100_counterclockwise (w : List (Fin 3)) :
    let p := fun k => image triangleCorners w (triangleCorners k)
    0 < (p 1 0 - p 0 0) * (p 2 1 - p 0 1) - (p 1 1 - p 0 1) * (p 2 0 - p 0 0) := by
  obtain ⟨h3, p3, -, -, -, -⟩ := sqrt_facts
  have hd : ∀ a b : Fin 3, ∀ r, image triangleCorners w (triangleCorners a) r
      - image triangleCorners w (triangleCorners b) r
      = (triangleCorners a r - triangleCorners b r) / 2 ^ w.length := by
    intro a b r
    rw [image_eq, image_eq]
    ring
  have hpos : (0 : ℝ) < 2 ^ w.length := by positivity
  show 0 < _
  simp only [hd]
  rw [div_mul_div_comm, div_mul_div_comm, ← sub_div]
  refine div_pos ?_ (by positivity)
  simp only [triangleCorners, Matrix.cons_val, Matrix.cons_val_zero, Matrix.cons_val_one]
  nlinarith

/-- A concrete level meets the hypotheses: at level 1 the pyramid has 10 points, 24 lines and
16 surfaces. -/
example : ∃ g faces, sierpinskiPyramid 0.1 1 = .ok ⟨0.1, g⟩ ∧ Draws g faces ∧
    (pointNumbers g).length = 10 ∧ (lineNumbers g).length = 24 := by
  obtain ⟨g, faces, h1, -, -, h2, -, -, -, h3, h4⟩ := (C100_pyramid 0.1 1).2 le_rfl
  refine ⟨g, faces, h1, h2, ?_, h4⟩
  rw [h3, List.length_range']
  rfl

example : ∃ g faces, sierpinskiTriangle 0.1 2 = .ok ⟨0.1, g⟩ ∧ Draws g faces ∧
    (pointNumbers g).length = 15 := by
  obtain ⟨g, faces, h1, -, -, h2, -, -, -, -, h3⟩ := (C100_triangle 0.1 2).2 (by norm_num)
  refine ⟨g, faces, ?_, h2, ?_⟩
  · rw [h1]
    congr 2
    rw [min_eq_right]
    rw [show (2 : ℤ) + 1 = (3 : ℕ) by norm_num, zpow_natCast]
    norm_num
  · have : (2 : ℤ).toNat = 2 := rfl
    rw [this] at h3
    omega

end Verif.Shapes
