import Verif.Lemmas.BcEdge
/-
The whole Buffa-Christiansen space.
-/
namespace Verif.Space
open Verif.Grid

variable {K : Type}

theorem bcEdges_ok {L : Type} [Field L] (T : BcTables) (checked : Bool) (P : Nat → List (Push L)) :
    ∀ (l : List (Nat × Int)), (∀ q ∈ l, ∀ st, bcEdge T checked q.1 q.2 st = .ok (pushAll (P q.1) st)) →
      ∀ st, bcEdges T checked l st = .ok (pushAll (l.flatMap fun q => P q.1) st) := by
  intro l
  induction l with
  | nil => intro _ st; rfl
  | cons q l ih =>
    intro h st
    unfold bcEdges
    rw [h q (by simp)]
    simp only [Bind.bind, Except.bind]
    rw [ih (fun q' hq' => h q' (by simp [hq'])), List.flatMap_cons, pushAll_append]

theorem bc_core {L : Type} [Field L] [CharZero L] (g : GridData K) (hg : g.Valid) (hs : OrientedSurface g) (b : GridData K) (hb : b.Valid)
    (hbe : b.data.elements = baryElements g) (dom dom' : Nat → Int) (sonMap : Nat → Nat → Nat)
    (hson : ∀ e k, e < g.data.elements.length → k < 6 → sonMap e k = 6 * e + k) (checked : Bool) (seg : GridSegment) (mode : DofMode)
    (hmode : mode.edgeOnSegment = true ∨ mode.elementOnSegment = true) :
    ∃ (P : Nat → List (Push L)) (st : BcState L),
      assignBC L checked (g.data.view dom) (b.data.view dom') sonMap seg mode false = .ok (bcFill st) ∧
      Rep st ((List.range g.data.edges.length).flatMap P) (6 * g.data.elements.length) (countBelow (InnerEdge g) g.data.edges.length) ∧
      (∀ f < g.data.edges.length, ¬ InnerEdge g f → P f = []) ∧
      ∀ f < g.data.edges.length, InnerEdge g f → ∃ x0 x1 net, x0 < 3 * g.data.elements.length ∧ x1 < 3 * g.data.elements.length ∧
        outEdge g x0 = f ∧ outEdge g x1 = f ∧ x0 / 3 < x1 / 3 ∧ NetCols g x0 x1 net ∧
        (∀ p ∈ P f, p.dof = countBelow (InnerEdge g) f ∧ p.face < 6 * g.data.elements.length) ∧
        ∀ F < 6 * g.data.elements.length,
          ((cornerAt g (F / 2) = cornerAt g x0 ∨ cornerAt g (F / 2) = cornerAt g x1) →
            ∃ p, ofFace (P f) F = [p] ∧ ∀ s, p.w * p.col.get s = net F s) ∧
          (cornerAt g (F / 2) ≠ cornerAt g x0 → cornerAt g (F / 2) ≠ cornerAt g x1 → ofFace (P f) F = []) := by
  classical
  obtain ⟨next, hnext, hodd, heven⟩ := next_spec g hg hs b hb hbe dom'
  obtain ⟨onB, honB, honBs⟩ := onBoundary_get g hg dom hs
  obtain ⟨T, hTd⟩ : ∃ T : BcTables, T = ⟨next, anticlockwiseEdgesToFaces (b.data.view dom'), anticlockwiseFacesToEdges (b.data.view dom'),
    fineFacesonEdge0 (g.data.view dom) sonMap, fineFacesonEdge1 (g.data.view dom) sonMap, coarseVerticesonEdge0 (g.data.view dom),
    coarseVerticesonEdge1 (g.data.view dom), edgeCountNextToCoarseVertex (g.data.view dom), onB⟩ := ⟨_, rfl⟩
  have hT : GoodTables g T := by
    subst hTd
    refine ⟨hodd, heven, ?_, ?_, honBs⟩
    · intro v l hl ho i x hx
      exact atBoundary_spec g hg hs b hb hbe dom' _ rfl rfl hl ho i x hx
    · intro v hv
      exact edgeCount_get g hg dom hs v hv
  have hTok : bcTables (g.data.view dom) (b.data.view dom') sonMap = .ok T := by
    unfold bcTables
    rw [honB, hnext]
    simp only [Bind.bind, Except.bind, pure, Except.pure]
    rw [hTd]
  have hnum := fun f hf => numbering_spec g hg dom hs f hf
  -- one edge
  have hedge : ∀ f : Nat, ∃ Q : List (Push L), f < g.data.edges.length →
      (∀ st, bcEdge T checked f ((bcNumbering (g.data.view dom)).1.getD f (-1)) st = .ok (pushAll Q st)) ∧
      (¬ InnerEdge g f → Q = []) ∧
      (InnerEdge g f → ∃ x0 x1 net, x0 < 3 * g.data.elements.length ∧ x1 < 3 * g.data.elements.length ∧
        outEdge g x0 = f ∧ outEdge g x1 = f ∧ x0 / 3 < x1 / 3 ∧ NetCols g x0 x1 net ∧
        (∀ p ∈ Q, p.dof = countBelow (InnerEdge g) f ∧ p.face < 6 * g.data.elements.length) ∧
        ∀ F < 6 * g.data.elements.length,
          ((cornerAt g (F / 2) = cornerAt g x0 ∨ cornerAt g (F / 2) = cornerAt g x1) →
            ∃ p, ofFace Q F = [p] ∧ ∀ s, p.w * p.col.get s = net F s) ∧
          (cornerAt g (F / 2) ≠ cornerAt g x0 → cornerAt g (F / 2) ≠ cornerAt g x1 → ofFace Q F = [])) := by
    intro f
    by_cases hf : f < g.data.edges.length
    · obtain ⟨n1, n2, -⟩ := hnum f hf
      by_cases hi : InnerEdge g f
      · have hd : (bcNumbering (g.data.view dom)).1.getD f (-1) = ((countBelow (InnerEdge g) f : Nat) : Int) := by
          rw [List.getD_eq_getElem?_getD, n1 hi]; rfl
        obtain ⟨x0, hx0, hx0f, hx0l⟩ := lowest_corner g hg hs f hf
        obtain ⟨x1, hx1, hne, hx1f⟩ : ∃ x1 < 3 * g.data.elements.length, x1 ≠ x0 ∧ outEdge g x1 = f := by
          obtain ⟨x, hx, y, hy, hxy, hxf, hyf⟩ := hi
          by_cases h : x = x0
          · exact ⟨y, hy, fun h' => hxy (h.trans h'.symm), hyf⟩
          · exact ⟨x, hx, h, hxf⟩
        have hlow : ∀ y < 3 * g.data.elements.length, outEdge g y = outEdge g x0 → x0 / 3 ≤ y / 3 := by
          intro y hy h; exact hx0l y hy (h.trans hx0f)
        obtain ⟨Q, net, hnet, hok, hQ, hQF⟩ := edge_spec (L := L) g hg hs T hT x0 x1 hx0 hx1 hne.symm (hx0f.trans hx1f.symm)
          (by rw [hTd]; exact face0_get g hg dom hs x0 hx0 hlow sonMap hson)
          (by rw [hTd]; exact face1_get g hg dom hs x0 hx0 hlow sonMap hson x1 hx1 hne (hx1f.trans hx0f.symm))
          (by rw [hTd]; exact vertex0_get g hg dom hs x0 hx0 hlow)
          (by rw [hTd]; exact vertex1_get g hg dom hs x0 hx0 hlow) checked (countBelow (InnerEdge g) f)
        refine ⟨Q, fun _ => ⟨?_, fun h => absurd hi h, fun _ => ⟨x0, x1, net, hx0, hx1, hx0f, hx1f, ?_, hnet, hQ, hQF⟩⟩⟩
        · rw [hd, ← hx0f]; rw [hx0f] at *; exact hok
        · have := hlow x1 hx1 (hx1f.trans hx0f.symm)
          rcases Nat.lt_or_ge (x0 / 3) (x1 / 3) with h | h
          · exact h
          · exact absurd (outEdge_inj_elem g hg x1 x0 hx1 (by omega) (hx1f.trans hx0f.symm)) hne
      · refine ⟨[], fun _ => ⟨?_, fun _ => rfl, fun h => absurd h hi⟩⟩
        intro st
        rw [List.getD_eq_getElem?_getD, n2 hi]
        rfl
    · exact ⟨[], fun h => absurd h hf⟩
  choose P hP using hedge
  have hcount : (bcNumbering (g.data.view dom)).2 = countBelow (InnerEdge g) g.data.edges.length := by
    by_cases h0 : 0 < g.data.edges.length
    · exact (hnum 0 h0).2.2
    · have he0 : g.data.edges.length = 0 := by omega
      have hb0 : baryScan (g.data.view dom) = [] := by
        rw [← List.length_eq_zero_iff]
        unfold baryScan
        rw [rwgScan_length]
        exact he0
      unfold bcNumbering
      rw [hb0, he0]
      simp [numberBlocks, countBelow]
  have hcf : (b.data.view dom').count 0 = 6 * g.data.elements.length := fine_count g b hbe
  have hce : (g.data.view dom).count 1 = g.data.edges.length := rfl
  have hrun := bcEdges_ok T checked P ((List.range g.data.edges.length).map fun j => (j, (bcNumbering (g.data.view dom)).1.getD j (-1))) (by
    intro q hq st
    obtain ⟨j, hj, rfl⟩ := List.mem_map.mp hq
    exact (hP j (List.mem_range.mp hj)).1 st)
  refine ⟨P, pushAll ((List.range g.data.edges.length).flatMap P) ⟨List.replicate (6 * g.data.elements.length) [],
    List.replicate (6 * g.data.elements.length) [], List.replicate (6 * g.data.elements.length) [],
    List.replicate (countBelow (InnerEdge g) g.data.edges.length) []⟩, ?_, ?_, fun f hf => (hP f hf).2.1, fun f hf => (hP f hf).2.2⟩
  rotate_left
  · refine rep_pushAll (nf := 6 * g.data.elements.length) (nd := countBelow (InnerEdge g) g.data.edges.length)
      ((List.range g.data.edges.length).flatMap P) _ [] (rep_nil _ _) ?_
    intro p hp
    obtain ⟨f, hf, hpf⟩ := List.mem_flatMap.mp hp
    have hf := List.mem_range.mp hf
    by_cases hi : InnerEdge g f
    · obtain ⟨x0, x1, net, -, -, -, -, -, -, hQ, -⟩ := (hP f hf).2.2 hi
      obtain ⟨h1, h2⟩ := hQ p hpf
      exact ⟨h2, by rw [h1]; exact countBelow_lt _ hf hi⟩
    · rw [(hP f hf).2.1 hi] at hpf; simp at hpf
  · unfold assignBC
    rw [if_neg (by rcases hmode with h | h <;> simp [h]), if_neg (by show ¬ ((b.data.view dom').dim ≠ 2); simp [DataContainer.view]), hTok]
    simp only [Bind.bind, Except.bind, Bool.false_eq_true, if_false]
    rw [hcf, hce, hcount, hrun]
    simp only [pure, Except.pure]
    rw [List.flatMap_map]

end Verif.Space
