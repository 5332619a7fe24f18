import Verif.Lemmas.SpacePolyDisc
import Verif.Props.SpacePoly
import Verif.Spec.SpacePolyDisc
/-
Property C109: the discontinuous polynomial space, its role as companion of the continuous one, and the space of constants.
-/
namespace Verif.Space
open Verif.Grid

/-- Whether the code gives node `q` a dof. -/
def discUse (s : GridSegment) (mode : RefMode) (p : Nat) (e : Elem) (q : Nat × Nat) : Bool :=
  let ent := nodeEntity p e q.1 q.2
  if ent.1 = 0 then inSegment s 0 e.index
  else (!mode.elementOnSegment || inSegment s 0 e.index) && (!mode.referencePointOnSegment || inSegment s ent.1 ent.2.1)

/-- All nodes, for every order. -/
def discNodes (p : Nat) : List (Nat × Nat) := if p = 0 then [(0, 0)] else writtenNodes p

theorem discNodes_perm (p : Nat) : (discNodes p).Perm (lattice p) := by
  unfold discNodes
  split
  · rename_i h; subst h; exact List.Perm.refl _
  · exact writtenNodes_perm p (by omega)

theorem polyDiscUses_eq (s : GridSegment) (mode : RefMode) (p : Nat) (e : Elem) (he : (e.sub 2).length = 3) :
    polyDiscUses s mode p e = (discNodes p).map fun q =>
      ⟨polyRow p q.2 + q.1, discUse s mode p e q, (nodeEntity p e q.1 q.2).2.2⟩ := by
  unfold polyDiscUses discNodes
  rw [if_neg (by omega)]
  by_cases hp : p = 0
  · subst hp
    simp [polyRow, discUse, nodeEntity]
  have hp0' : (0 : Nat) ≠ p := by omega
  rw [if_neg hp, if_neg hp]
  unfold writtenNodes
  simp only [List.map_append]
  refine congrArg₂ (· ++ ·) (congrArg₂ (· ++ ·) (congrArg₂ (· ++ ·) (congrArg₂ (· ++ ·) ?_ ?_) ?_) ?_) ?_
  · simp [polyRow, discUse, nodeEntity, hp, hp0', ← polyRow_last]
  · rw [List.map_map]
    refine List.map_congr_left ?_
    intro k hk
    have hk' := List.mem_range.mp hk
    have h1 : k + 1 ≠ p := by omega
    simp [discUse, nodeEntity, polyRow, hp, hp0', h1]
  · rw [List.map_map]
    refine List.map_congr_left ?_
    intro k hk
    have hk' := List.mem_range.mp hk
    have h1 : k + 1 ≠ p := by omega
    simp [discUse, nodeEntity, hp, hp0', h1]
  · rw [List.map_map]
    refine List.map_congr_left ?_
    intro k hk
    have hk' := List.mem_range.mp hk
    have h1 : k + 1 ≠ p := by omega
    have h2 : p - (k + 1) ≠ 0 := by omega
    have h3 : p - (k + 1) + (k + 1) = p := by omega
    simp only [Function.comp_apply, discUse, nodeEntity, hp, h1, h2, h3, and_false, false_and, if_false, if_true,
      Nat.succ_ne_zero, one_ne_zero]
  · refine List.map_congr_left ?_
    rintro ⟨x, y⟩ hq
    rw [mem_polyBubbles] at hq
    simp only at hq
    have h1 : x ≠ 0 := by omega
    have h2 : y ≠ 0 := by omega
    have h3 : x + y ≠ p := by omega
    simp only [discUse, nodeEntity, hp, h1, h2, h3, and_false, false_and, if_false, if_true]

theorem discUse_iff (s : GridSegment) (mode : RefMode) (hmode : mode.elementOnSegment = true ∨ mode.referencePointOnSegment = true)
    (p : Nat) (e : Elem) (x y : Nat) : discUse s mode p e (x, y) = true ↔ DiscNode s mode p e x y := by
  unfold discUse DiscNode
  have h0 : inSegment s 0 e.index = true ↔ s.contains 0 e.index = .ok true := inSegment_iff s 0 e.index
  have hi := inSegment_iff s
  simp only
  by_cases hc : (nodeEntity p e x y).1 = 0
  · have hent : (nodeEntity p e x y).2.1 = e.index := by
      unfold nodeEntity at hc ⊢
      split_ifs at hc ⊢ <;> first | rfl | (exfalso; revert hc; simp)
    rw [if_pos hc, hc, hent, h0]
    constructor
    · intro h; exact ⟨fun _ => h, fun _ => h⟩
    · rintro ⟨h1, h2⟩
      rcases hmode with h | h
      · exact h1 h
      · exact h2 h
  · rw [if_neg hc, ← hi, ← h0]
    cases mode.elementOnSegment <;> cases mode.referencePointOnSegment <;> simp

theorem polyDisc_good (v : View) (hv : TriMesh v) (s : GridSegment) (mode : RefMode) (p : Nat) :
    GoodStore v (polyDiscRow p) (polyDiscUses s mode p) where
  index_nodup := hv.wf.index_nodup
  index_lt := fun e he => index_lt v hv.wf he
  keys := by
    intro e he
    rw [polyDiscUses_eq s mode p e (hv.corners e he), List.map_map]
    unfold polyDiscRow
    rw [if_pos (hv.corners e he), ← lattice_map]
    exact (discNodes_perm p).map _

theorem assignPolyDisc_ok (v : View) (hv : TriMesh v) (s : GridSegment) (mode : RefMode)
    (hmode : mode.elementOnSegment = true ∨ mode.referencePointOnSegment = true) (p : Nat) (hp : p ≤ 10) :
    assignPolyDisc v s mode p = .ok (storeElements v (polyDiscRow p) (polyDiscUses s mode p)) := by
  unfold assignPolyDisc
  rw [if_neg (by rw [hv.dim]; simp), if_neg (by rcases hmode with h | h <;> simp [h]), if_neg (by omega), Int.toNat_natCast]

theorem mem_polyDiscUses (s : GridSegment) (mode : RefMode) (p : Nat) (e : Elem) (he : (e.sub 2).length = 3) (w : RefUse) :
    w ∈ polyDiscUses s mode p e ↔ ∃ x y, x + y ≤ p ∧
      w = ⟨nodeIndex p x y, discUse s mode p e (x, y), (nodeEntity p e x y).2.2⟩ := by
  rw [polyDiscUses_eq s mode p e he, List.mem_map]
  constructor
  · rintro ⟨⟨x, y⟩, hq, rfl⟩
    have := (mem_lattice p _).mp ((discNodes_perm p).mem_iff.mp hq)
    simp only at this
    exact ⟨x, y, this, by rw [nodeIndex_eq p y (by omega)]⟩
  · rintro ⟨x, y, hxy, rfl⟩
    refine ⟨(x, y), (discNodes_perm p).mem_iff.mpr ((mem_lattice p _).mpr hxy), ?_⟩
    rw [nodeIndex_eq p y (by omega)]

theorem nodeIndex_inj (p x y x' y' : Nat) (h : x + y ≤ p) (h' : x' + y' ≤ p) (heq : nodeIndex p x y = nodeIndex p x' y') :
    x = x' ∧ y = y' := by
  have hlt : nodeIndex p x' y' < (p + 1) * (p + 2) / 2 := by
    have hm : polyRow p y' + x' ∈ (lattice p).map (fun q => polyRow p q.2 + q.1) :=
      List.mem_map.mpr ⟨(x', y'), (mem_lattice p _).mpr h', rfl⟩
    rw [lattice_map, List.mem_range, nodeIndex_eq p y' (by omega)] at hm
    exact hm
  obtain ⟨a, b, -, -, huniq⟩ := (C44_local_dofs p _).mp hlt
  have h1 := huniq x y h heq
  have h2 := huniq x' y' h' rfl
  omega

/-- The value at a node, in terms of the node. -/
theorem polyDisc_at (v : View) (hv : TriMesh v) (s : GridSegment) (mode : RefMode) (p : Nat) (e : Elem) (he : e ∈ v.elems)
    (x y : Nat) (hxy : x + y ≤ p) :
    (discUse s mode p e (x, y) = true → ∃ g : Nat,
      (storeElements v (polyDiscRow p) (polyDiscUses s mode p)).maps.At ⟨e.index, nodeIndex p x y⟩ g) ∧
    (discUse s mode p e (x, y) = false →
      (storeElements v (polyDiscRow p) (polyDiscUses s mode p)).maps.At ⟨e.index, nodeIndex p x y⟩ (-1)) := by
  have hw : (⟨nodeIndex p x y, discUse s mode p e (x, y), (nodeEntity p e x y).2.2⟩ : RefUse) ∈ polyDiscUses s mode p e :=
    (mem_polyDiscUses s mode p e (hv.corners e he) _).mpr ⟨x, y, hxy, rfl⟩
  obtain ⟨j, hj⟩ := List.mem_iff_getElem?.mp hw
  obtain ⟨g, hat, hcase⟩ := (storeElements_row (polyDisc_good v hv s mode p) e he).2 j _ hj
  simp only at hat hcase
  constructor
  · intro h
    rw [h] at hcase
    rcases hcase with ⟨-, h0, -⟩ | ⟨h1, -⟩
    · refine ⟨g.toNat, ?_⟩
      rw [Int.toNat_of_nonneg h0]; exact hat
    · cases h1
  · intro h
    rw [h] at hcase
    rcases hcase with ⟨h1, -⟩ | ⟨-, rfl⟩
    · cases h1
    · exact hat

/-- **C109 (dof maps of the discontinuous polynomial space).**  On every triangular mesh, for every segment, every mode the
constructor accepts and every order from 0 to 10 the space is built; its two maps and its flat list describe the same relation;
every global dof belongs to exactly one local dof, so functions on neighbouring elements are independent; the number of flat
local dofs it reports is the number of its global dofs and of its flat local dofs; and node `(x, y)` of an element carries a dof
exactly when the documentation of the mode says so. -/
theorem C109_discontinuous_dof_maps (v : View) (hv : TriMesh v) (s : GridSegment) (mode : RefMode)
    (hmode : mode.elementOnSegment = true ∨ mode.referencePointOnSegment = true) (p : Nat) (hp : p ≤ 10) :
    ∃ m, assignPolyDisc v s mode p = .ok m ∧ m.maps.Consistent ∧
      (∀ g, g < m.maps.globalDofCount → (m.maps.globalToLocal g).length = 1) ∧
      m.flatLocalDofCount = m.maps.globalDofCount ∧ m.flat.length = m.maps.globalDofCount ∧
      ∀ e ∈ v.elems, (m.maps.getGlobalDofs e.index).length = (p + 1) * (p + 2) / 2 ∧
        ∀ x y, x + y ≤ p →
          (DiscNode s mode p e x y → ∃ g : Nat, m.maps.At ⟨e.index, nodeIndex p x y⟩ g) ∧
          (¬ DiscNode s mode p e x y → m.maps.At ⟨e.index, nodeIndex p x y⟩ (-1)) := by
  have hg := polyDisc_good v hv s mode p
  refine ⟨_, assignPolyDisc_ok v hv s mode hmode p hp, storeElements_consistent hg, ?_, rfl, ?_, ?_⟩
  · intro g hlt
    obtain ⟨ld, h1, -⟩ := storeElements_globalToLocal hlt
    rw [h1]; rfl
  · rw [storeElements_count]
    refine List.Perm.length_eq ((List.perm_ext_iff_of_nodup (flat_nodup _) (usedOf_nodup hg)).mpr ?_)
    intro ld
    rw [flat_mem]
    constructor
    · rintro ⟨g, hat⟩
      obtain ⟨e, he, hi, ⟨-, -, h⟩ | ⟨-, h⟩⟩ := (storeElements_at hg ld g).mp hat
      · exact List.mem_of_getElem? h
      · omega
    · intro hm
      obtain ⟨g, hgt⟩ := List.mem_iff_getElem?.mp hm
      obtain ⟨e, he, hu⟩ := List.mem_flatMap.mp hm
      obtain ⟨h1, h2⟩ := (mem_usedOf e ld).mp hu
      refine ⟨g, (storeElements_at hg ld g).mpr ⟨e, he, h1, Or.inl ⟨h2, by omega, ?_⟩⟩⟩
      rw [Int.toNat_natCast]; exact hgt
  · intro e he
    refine ⟨?_, ?_⟩
    · rw [(storeElements_row hg e he).1]
      unfold polyDiscRow
      rw [if_pos (hv.corners e he)]
      rfl
    · intro x y hxy
      obtain ⟨h1, h2⟩ := polyDisc_at v hv s mode p e he x y hxy
      refine ⟨fun h => h1 ((discUse_iff s mode hmode p e x y).mpr h), fun h => h2 ?_⟩
      cases hb : discUse s mode p e (x, y) with
      | false => rfl
      | true => exact absurd ((discUse_iff s mode hmode p e x y).mp hb) h

/-- **C109 (positions of the global dofs).**  The position reported for a global dof is the mean of the corners of the vertex,
edge or element its node lies on, in the element the dof belongs to. -/
theorem C109_discontinuous_positions (v : View) (hv : TriMesh v) (s : GridSegment) (mode : RefMode)
    (hmode : mode.elementOnSegment = true ∨ mode.referencePointOnSegment = true) (p : Nat) (hp : p ≤ 10) (m : RefMaps)
    (hm : assignPolyDisc v s mode p = .ok m) : m.globalDofPositions.length = m.maps.globalDofCount ∧
    ∀ e ∈ v.elems, ∀ x y, x + y ≤ p → ∀ g : Nat, m.maps.At ⟨e.index, nodeIndex p x y⟩ g →
      m.globalDofPositions[g]? = some (e.index, (nodeEntity p e x y).2.2) := by
  rw [assignPolyDisc_ok v hv s mode hmode p hp] at hm
  cases hm
  have hg := polyDisc_good v hv s mode p
  constructor
  · rw [storeElements_count]
    unfold RefMaps.globalDofPositions storeElements
    rw [storeElements_boxes, List.nil_append, List.length_flatMap, List.length_flatMap]
    congr 1
    refine List.map_congr_left ?_
    intro e _
    unfold usedOf usePairs
    rw [List.filter_map, List.length_map, List.length_map, List.length_map]
    rfl
  · intro e he x y hxy g hat
    obtain ⟨e', he', hidx, w, hw, hwd, -, hbox⟩ := storeElements_box hg g _ hat
    have : e' = e := List.inj_on_of_nodup_map hv.wf.index_nodup he' he hidx
    subst this
    obtain ⟨x', y', hxy', rfl⟩ := (mem_polyDiscUses s mode p e' (hv.corners e' he) w).mp hw
    obtain ⟨rfl, rfl⟩ := nodeIndex_inj p x' y' x y hxy' hxy hwd
    exact hbox

/-- **C109 (rejected arguments).**  The constructor throws exactly for grids that are not surfaces, modes without either of the
two bits, and orders outside 0, ..., 10. -/
theorem C109_discontinuous_errors (v : View) (s : GridSegment) (mode : RefMode) (order : Int) :
    (∃ err, assignPolyDisc v s mode order = .error err) ↔
      v.dim ≠ 2 ∨ (mode.elementOnSegment = false ∧ mode.referencePointOnSegment = false) ∨ order < 0 ∨ 10 < order := by
  unfold assignPolyDisc
  by_cases h1 : v.dim ≠ 2
  · simp [h1]
  · rw [if_neg h1]
    by_cases h2 : (!(mode.elementOnSegment || mode.referencePointOnSegment)) = true
    · rw [if_pos h2]
      have : mode.elementOnSegment = false ∧ mode.referencePointOnSegment = false := by
        revert h2; cases mode.elementOnSegment <;> cases mode.referencePointOnSegment <;> simp
      exact ⟨fun _ => Or.inr (Or.inl this), fun _ => ⟨_, rfl⟩⟩
    · rw [if_neg h2]
      have : ¬ (mode.elementOnSegment = false ∧ mode.referencePointOnSegment = false) := by
        revert h2; cases mode.elementOnSegment <;> cases mode.referencePointOnSegment <;> simp
      by_cases h3 : order < 0 ∨ 10 < order
      · rw [if_pos h3]
        exact ⟨fun _ => Or.inr (Or.inr h3), fun _ => ⟨_, rfl⟩⟩
      · rw [if_neg h3]
        constructor
        · rintro ⟨err, h⟩; cases h
        · rintro (h | h | h)
          · exact absurd h h1
          · exact absurd h this
          · exact absurd h h3

theorem nodeEntity_used (v : View) (s : GridSegment) (hv : TriMesh v) (strict : Bool) (p : Nat) (hp : 1 ≤ p) (e : Elem)
    (he : e ∈ v.elems) (x y : Nat) :
    DiscNode s ⟨strict, true⟩ p e x y ↔ UsedNode v s strict p e x y := by
  have hp0 : p ≠ 0 := by omega
  have c2 : ∀ k, k < 3 → (e.sub 2).getD k 0 ∈ e.sub 2 := by
    intro k hk
    rw [List.getD_eq_getElem _ _ (by rw [hv.corners e he]; exact hk)]
    exact List.getElem_mem _
  have c1 : ∀ k, k < 3 → (e.sub 1).getD k 0 ∈ e.sub 1 := by
    intro k hk
    rw [List.getD_eq_getElem _ _ (by rw [hv.edges e he]; exact hk)]
    exact List.getElem_mem _
  have key : ∀ c i, i ∈ e.sub c → (((strict = true → s.contains 0 e.index = .ok true) ∧
      (true = true → s.contains c i = .ok true)) ↔
      (UsedEntity v s strict c i ∧ (strict = true → s.contains 0 e.index = .ok true))) := by
    intro c i hi
    unfold UsedEntity
    constructor
    · rintro ⟨h1, h2⟩
      exact ⟨⟨h2 rfl, fun hs => ⟨e, he, h1 hs, hi⟩⟩, h1⟩
    · rintro ⟨⟨h1, -⟩, h2⟩
      exact ⟨h2, fun _ => h1⟩
  unfold DiscNode UsedNode nodeEntity
  rw [if_neg hp0]
  split_ifs
  · exact key 2 _ (c2 0 (by omega))
  · exact key 2 _ (c2 1 (by omega))
  · exact key 2 _ (c2 2 (by omega))
  · exact key 1 _ (c1 0 (by omega))
  · exact key 1 _ (c1 1 (by omega))
  · exact key 1 _ (c1 2 (by omega))
  · constructor
    · rintro ⟨-, h⟩; exact h rfl
    · intro h; exact ⟨fun _ => h, fun _ => h⟩

/-- Two consistent maps over the same mesh with the same used nodes have the same flat list. -/
theorem flat_eq_of_nodes (v : View) (p : Nat) (a b : DofMaps)
    (ha : ∀ ld g, a.At ld g → ∃ e ∈ v.elems, e.index = ld.entityIndex ∧ ld.dofIndex < (p + 1) * (p + 2) / 2)
    (hb : ∀ ld g, b.At ld g → ∃ e ∈ v.elems, e.index = ld.entityIndex ∧ ld.dofIndex < (p + 1) * (p + 2) / 2)
    (hab : ∀ e ∈ v.elems, ∀ x y, x + y ≤ p →
      ((∃ g : Nat, a.At ⟨e.index, nodeIndex p x y⟩ g) ↔ ∃ g : Nat, b.At ⟨e.index, nodeIndex p x y⟩ g)) : a.flat = b.flat := by
  have hmem : ∀ ld, ld ∈ a.flat ↔ ld ∈ b.flat := by
    rintro ⟨ei, k⟩
    rw [flat_mem, flat_mem]
    constructor
    · rintro ⟨g, hg⟩
      obtain ⟨e, he, rfl, hk⟩ := ha _ _ hg
      obtain ⟨x, y, hxy, rfl, -⟩ := (C44_local_dofs p _).mp hk
      exact (hab e he x y hxy).mp ⟨g, hg⟩
    · rintro ⟨g, hg⟩
      obtain ⟨e, he, rfl, hk⟩ := hb _ _ hg
      obtain ⟨x, y, hxy, rfl, -⟩ := (C44_local_dofs p _).mp hk
      exact (hab e he x y hxy).mpr ⟨g, hg⟩
  refine List.Perm.eq_of_pairwise ?_ (flat_sorted a) (flat_sorted b)
    ((List.perm_ext_iff_of_nodup (flat_nodup a) (flat_nodup b)).mpr hmem)
  intro x y _ _ hxy hyx
  omega

/-- **C109 (which discontinuous space contains a continuous one).**  For every order from 1 to 10 the discontinuous space in mode
`REFERENCE_POINT_ON_SEGMENT`, with `ELEMENT_ON_SEGMENT` added in strict mode, has the same flat local dofs in the same order as the
continuous space on the same segment. -/
theorem C109_matching_space (v : View) (hv : TriMesh v) (s : GridSegment) (strict : Bool) (p : Nat) (hp : 1 ≤ p) (hp10 : p ≤ 10)
    (c : DofMaps) (hc : assignPoly v s strict p = .ok c) (d : RefMaps) (hd : assignPolyDisc v s ⟨strict, true⟩ p = .ok d) :
    d.flat = c.flat := by
  obtain ⟨c', hc', hcons, -, hel⟩ := C44_dof_maps v hv s strict p hp
  rw [hc] at hc'
  cases hc'
  obtain ⟨d', hd', hdcons, -, -, -, hdel⟩ := C109_discontinuous_dof_maps v hv s ⟨strict, true⟩ (Or.inr rfl) p hp10
  rw [hd] at hd'
  cases hd'
  have hcw := assignPoly_ok v hv s strict p
  rw [hc] at hcw
  cases hcw
  have hdw := assignPolyDisc_ok v hv s ⟨strict, true⟩ (Or.inr rfl) p hp10
  rw [hd] at hdw
  cases hdw
  refine flat_eq_of_nodes v p _ _ ?_ ?_ ?_
  · intro ld g hat
    obtain ⟨e, he, hi, -⟩ := (storeElements_at (polyDisc_good v hv s _ p) ld g).mp hat
    refine ⟨e, he, hi, ?_⟩
    rw [← (hdel e he).1, hi]
    exact (List.getElem?_eq_some_iff.mp hat).1
  · intro ld g hat
    obtain ⟨e, he, hi, -⟩ := (writeElements_at (poly_good v hv s strict p hp) ld g).mp hat
    refine ⟨e, he, hi, ?_⟩
    rw [← (hel e he).1, hi]
    exact (List.getElem?_eq_some_iff.mp hat).1
  · intro e he x y hxy
    have h1 := (hdel e he).2 x y hxy
    have h2 := (hel e he).2 x y hxy
    have hiff := nodeEntity_used v s hv strict p hp e he x y
    have noneg : ∀ (m : DofMaps) (ld : LocalDof) (g : Nat), m.At ld g → m.At ld (-1) → False := by
      intro m ld g h h'
      unfold DofMaps.At at h h'
      rw [h] at h'
      injection h' with h'
      omega
    by_cases hu : UsedNode v s strict p e x y
    · exact ⟨fun _ => h2.1 hu, fun _ => h1.1 (hiff.mpr hu)⟩
    · constructor
      · rintro ⟨g, hg⟩; exact (noneg _ _ g hg (h1.2 (fun h => hu (hiff.mp h)))).elim
      · rintro ⟨g, hg⟩; exact (noneg _ _ g hg (h2.2 hu)).elim

/-- **C109, partial (the companion of a continuous space).**  `discontinuousSpace()` of a continuous polynomial space that is not
strict has the flat local dofs of the continuous space as its dofs.  Missing: strict mode, see the counterexample. -/
theorem C109_companion_partial (v : View) (hv : TriMesh v) (s : GridSegment) (p : Nat) (hp : 1 ≤ p) (hp10 : p ≤ 10)
    (c : DofMaps) (hc : assignPoly v s false p = .ok c) :
    ∃ d, polyDiscontinuousSpace v s false p = .ok d ∧ d.flat = c.flat ∧ d.maps.globalDofCount = c.flat.length := by
  obtain ⟨d, hd, -, -, -, hlen, -⟩ := C109_discontinuous_dof_maps v hv s ⟨false, true⟩ (Or.inr rfl) p hp10
  have h := C109_matching_space v hv s false p hp hp10 c hc d hd
  exact ⟨d, hd, h, by rw [← hlen, h]⟩

theorem positions_flat (v : View) (hv : TriMesh v) (hord : (v.elems.map (·.index)).Pairwise (· < ·)) (s : GridSegment) (mode : RefMode)
    (p : Nat) (hp : p ≤ 1) :
    v.elems.flatMap (usedOf (usePairs (polyDiscUses s mode p))) =
      (storeElements v (polyDiscRow p) (polyDiscUses s mode p)).flat := by
  have hg := polyDisc_good v hv s mode p
  have hgu : GoodUses v (usePairs (polyDiscUses s mode p)) := by
    refine ⟨hg.index_nodup, hg.index_lt, ?_⟩
    intro e he
    unfold usePairs
    rw [polyDiscUses_eq s mode p e (hv.corners e he)]
    simp only [List.map_map, List.length_map]
    have : p = 0 ∨ p = 1 := by omega
    rcases this with rfl | rfl
    · rfl
    · rfl
  refine List.Perm.eq_of_pairwise ?_ (used_sorted v _ hgu hord) (flat_sorted _) ?_
  · intro a b _ _ hab hba; omega
  · refine (List.perm_ext_iff_of_nodup (usedOf_nodup hg) (flat_nodup _)).mpr ?_
    intro ld
    rw [flat_mem]
    constructor
    · intro hm
      obtain ⟨g, hgt⟩ := List.mem_iff_getElem?.mp hm
      obtain ⟨e, he, hu⟩ := List.mem_flatMap.mp hm
      obtain ⟨h1, h2⟩ := (mem_usedOf e ld).mp hu
      refine ⟨g, (storeElements_at hg ld g).mpr ⟨e, he, h1, Or.inl ⟨h2, by omega, ?_⟩⟩⟩
      rw [Int.toNat_natCast]; exact hgt
    · rintro ⟨g, hat⟩
      obtain ⟨e, he, hi, ⟨-, -, h⟩ | ⟨-, h⟩⟩ := (storeElements_at hg ld g).mp hat
      · exact List.mem_of_getElem? h
      · omega

/-- **C109, partial (positions of the flat local dofs).**  For orders 0 and 1, when the elements are visited in the order of their
indices, entry `i` of `getFlatLocalDofPositions` is the position of flat local dof `i`.  Missing: higher orders, see the
counterexample. -/
theorem C109_flat_positions_partial (v : View) (hv : TriMesh v) (hord : (v.elems.map (·.index)).Pairwise (· < ·)) (s : GridSegment)
    (mode : RefMode) (hmode : mode.elementOnSegment = true ∨ mode.referencePointOnSegment = true) (p : Nat) (hp : p ≤ 1)
    (m : RefMaps) (hm : assignPolyDisc v s mode p = .ok m) (i : Nat) (e : Elem) (he : e ∈ v.elems) (x y : Nat) (hxy : x + y ≤ p)
    (hi : m.flat[i]? = some ⟨e.index, nodeIndex p x y⟩) :
    m.flatLocalDofPositions[i]? = some (e.index, (nodeEntity p e x y).2.2) := by
  have hpos := (C109_discontinuous_positions v hv s mode hmode p (by omega) m hm).2 e he x y hxy i
  rw [assignPolyDisc_ok v hv s mode hmode p (by omega)] at hm
  cases hm
  have hg := polyDisc_good v hv s mode p
  refine hpos ?_
  rw [← positions_flat v hv hord s mode p hp] at hi
  obtain ⟨e', he', hu⟩ := List.mem_flatMap.mp (List.mem_of_getElem? hi)
  obtain ⟨h1, h2⟩ := (mem_usedOf e' _).mp hu
  refine (storeElements_at hg _ _).mpr ⟨e', he', h1, Or.inl ⟨h2, by omega, ?_⟩⟩
  rw [Int.toNat_natCast]; exact hi

/-- Two triangles of different domains. -/
def twoTris : List Tri := [⟨0, 1, 2⟩, ⟨2, 1, 3⟩]

/-- The entity counts of that mesh. -/
def twoCounts (c : Nat) : Int := if c = 0 then 2 else if c = 1 then 5 else if c = 2 then 4 else 0

theorem twoTris_mesh : ∃ d, DataContainer.init 4 twoTris 0 = some d ∧ TriMesh (d.view fun _ => 1) := by
  have hok : MeshOk 4 twoTris := ⟨by decide, by simp [twoTris, Tri.Proper]⟩
  have h : ∃ d, DataContainer.init 4 twoTris 0 = some d := ⟨_, rfl⟩
  obtain ⟨d, hd⟩ := h
  exact ⟨d, hd, triMesh_view 4 twoTris 0 d hd hok (by simp [twoTris]) (by decide) _⟩

/-- **C109 is false as stated (strict mode).**  On two triangles with a segment that leaves out the second one, the continuous
space of order 2 in strict mode has six flat local dofs; the space its `discontinuousSpace()` returns has twelve. -/
theorem C109_counterexample_strict_companion : ∃ d, DataContainer.init 4 twoTris 0 = some d ∧ TriMesh (d.view fun _ => 1) ∧
    let s : GridSegment := ⟨twoCounts, fun c => if c = 0 then {1} else ∅⟩
    ∃ c m, assignPoly (d.view fun _ => 1) s true 2 = .ok c ∧ polyDiscontinuousSpace (d.view fun _ => 1) s true 2 = .ok m ∧
      c.flat.length = 6 ∧ m.maps.globalDofCount = 12 := by
  obtain ⟨d, hd, ht⟩ := twoTris_mesh
  refine ⟨d, hd, ht, ?_⟩
  cases hd
  exact ⟨_, _, rfl, rfl, by decide, by decide⟩

/-- **C109 is false as stated (positions of flat local dofs).**  For order 2 on the whole of a grid, flat local dof 1 of the first
triangle is its first edge dof, but `getFlatLocalDofPositions` reports corner 1 for it: the list is in the order of the
global dofs. -/
theorem C109_counterexample_flat_positions : ∃ d, DataContainer.init 4 twoTris 0 = some d ∧ TriMesh (d.view fun _ => 1) ∧
    ∃ m, assignPolyDisc (d.view fun _ => 1) (wholeGrid (d.view fun _ => 1)) ⟨false, true⟩ 2 = .ok m ∧
      m.flat[1]? = some ⟨0, nodeIndex 2 1 0⟩ ∧ m.flatLocalDofPositions[1]? = some (0, [1]) ∧
      ∀ e, (nodeEntity 2 e 1 0).2.2 = [0, 1] := by
  obtain ⟨d, hd, ht⟩ := twoTris_mesh
  refine ⟨d, hd, ht, ?_⟩
  cases hd
  exact ⟨_, rfl, by decide, by decide, fun e => rfl⟩

/-- Non-vacuity: order 3 with a segment without the second triangle and vertex 0. -/
example : ∃ d, DataContainer.init 4 twoTris 0 = some d ∧ TriMesh (d.view fun _ => 1) ∧
    ∃ m, assignPolyDisc (d.view fun _ => 1) ⟨twoCounts, fun c => if c = 0 then {1} else if c = 2 then {0} else ∅⟩ ⟨false, true⟩ 3 =
      .ok m ∧ m.maps.globalDofCount = 18 ∧ m.maps.getGlobalDofs 0 = [-1, 2, 3, 0, 4, 8, 6, 5, 7, 1] ∧
      m.maps.getGlobalDofs 1 = [9, 12, 13, 10, 14, -1, 16, 15, 17, 11] := by
  obtain ⟨d, hd, ht⟩ := twoTris_mesh
  refine ⟨d, hd, ht, ?_⟩
  cases hd
  exact ⟨_, rfl, by decide, by decide, by decide⟩

/-! ### The space of constants -/

theorem unit_fold (es : List Elem) : ∀ (l : List (List Int)) (ls : List LocalDof),
    es.foldl (fun (st : List (List Int) × List LocalDof) e => (st.1.set e.index [0], st.2 ++ [⟨e.index, 0⟩])) (l, ls) =
      (es.foldl (fun (l : List (List Int)) e => l.set e.index [0]) l, ls ++ es.map fun e => ⟨e.index, 0⟩) := by
  induction es with
  | nil => intro l ls; simp
  | cons e es ih => intro l ls; rw [List.foldl_cons, ih, List.foldl_cons]; simp

theorem unit_rows (es : List Elem) : ∀ (l : List (List Int)),
    (es.foldl (fun (l : List (List Int)) e => l.set e.index [0]) l).length = l.length ∧
    ∀ i, i < l.length → (es.foldl (fun (l : List (List Int)) e => l.set e.index [0]) l)[i]? =
      if ∃ e ∈ es, e.index = i then some [0] else l[i]? := by
  induction es with
  | nil => intro l; simp
  | cons e es ih =>
    intro l
    rw [List.foldl_cons]
    obtain ⟨h1, h2⟩ := ih (l.set e.index [0])
    refine ⟨by rw [h1, List.length_set], ?_⟩
    intro i hi
    rw [h2 i (by rw [List.length_set]; exact hi)]
    by_cases h3 : ∃ e' ∈ es, e'.index = i
    · rw [if_pos h3, if_pos]
      obtain ⟨e', he', h4⟩ := h3
      exact ⟨e', List.mem_cons_of_mem _ he', h4⟩
    · rw [if_neg h3]
      by_cases h5 : e.index = i
      · rw [if_pos ⟨e, List.mem_cons_self .., h5⟩, ← h5, List.getElem?_set_self (by omega)]
      · rw [if_neg, List.getElem?_set_ne h5]
        rintro ⟨e', he', h6⟩
        rcases List.mem_cons.mp he' with rfl | he'
        · exact h5 h6
        · exact h3 ⟨e', he', h6⟩

theorem assignUnit_eq (v : View) (hv : v.WF) : assignUnit v =
    ⟨List.replicate (v.count 0) [0], [v.elems.map fun e => ⟨e.index, 0⟩]⟩ := by
  unfold assignUnit
  simp only [unit_fold, List.nil_append]
  congr 1
  refine List.ext_getElem? ?_
  intro i
  obtain ⟨h1, h2⟩ := unit_rows v.elems (List.replicate (v.count 0) [])
  by_cases hi : i < v.count 0
  · rw [h2 i (by simpa using hi), if_pos, List.getElem?_replicate, if_pos hi]
    obtain ⟨e, he, h | ⟨h, -⟩⟩ := hv.covered 0 i (Nat.zero_le _) hi
    · exact ⟨e, he, h.2⟩
    · omega
  · rw [List.getElem?_eq_none (by rw [h1]; simpa using hi), List.getElem?_eq_none (by simpa using hi)]

/-- **C109 (the space of constants).**  The space has one global dof; it is the only dof of every element, and its local dofs are
exactly the first local dofs of the elements, each once. The flat local dofs the space reports are the flat list of its maps, and the matrix that maps global dofs to flat
local dofs is the column of ones, so every function of the space is constant on the grid. -/
theorem C109_constants (v : View) (hv : v.WF) : (assignUnit v).Consistent ∧ (assignUnit v).globalDofCount = 1 ∧
    (∀ e ∈ v.elems, (assignUnit v).getGlobalDofs e.index = [0]) ∧
    (∀ ld, ld ∈ (assignUnit v).globalToLocal 0 ↔ ∃ e ∈ v.elems, ld = ⟨e.index, 0⟩) ∧
    unitFlat v = (assignUnit v).flat ∧ (unitQueries v).flatLocalDofCount = (unitFlat v).length ∧
    ∃ rc, mappingVectors (unitQueries v) = .ok rc ∧ ∀ i, i < v.count 0 → ∀ j, mappingEntry rc i j = if j = 0 then 1 else 0 := by
  have heq := assignUnit_eq v hv
  have hat : ∀ ld g, (assignUnit v).At ld g ↔ ld.entityIndex < v.count 0 ∧ ld.dofIndex = 0 ∧ g = 0 := by
    intro ld g
    unfold DofMaps.At DofMaps.getGlobalDofs
    rw [heq]
    simp only [List.getD_eq_getElem?_getD, List.getElem?_replicate]
    by_cases h : ld.entityIndex < v.count 0
    · rw [if_pos h]
      simp only [Option.getD_some, h, true_and]
      cases hd : ld.dofIndex with
      | zero => simp [eq_comm]
      | succ k => simp
    · rw [if_neg h]; simp [h]
  have hidx : ∀ i, i < v.count 0 ↔ ∃ e ∈ v.elems, e.index = i := by
    intro i
    constructor
    · intro hi
      obtain ⟨e, he, h | ⟨h, -⟩⟩ := hv.covered 0 i (Nat.zero_le _) hi
      · exact ⟨e, he, h.2⟩
      · omega
    · rintro ⟨e, he, rfl⟩; exact index_lt v hv he
  have hcount : (assignUnit v).globalDofCount = 1 := by unfold DofMaps.globalDofCount; rw [heq]; rfl
  have hg0 : (assignUnit v).globalToLocal 0 = v.elems.map fun e => ⟨e.index, 0⟩ := by
    unfold DofMaps.globalToLocal; rw [heq]; rfl
  have hflat : unitFlat v = (assignUnit v).flat := by
    refine List.Perm.eq_of_pairwise (le := fun a b : LocalDof =>
      a.entityIndex < b.entityIndex ∨ (a.entityIndex = b.entityIndex ∧ a.dofIndex < b.dofIndex)) ?_ ?_ (flat_sorted _) ?_
    · intro a b _ _ hab hba; omega
    · unfold unitFlat
      rw [List.pairwise_map]
      exact List.pairwise_lt_range.imp (fun h => Or.inl h)
    · refine (List.perm_ext_iff_of_nodup ?_ (flat_nodup _)).mpr ?_
      · unfold unitFlat
        refine List.Nodup.map ?_ List.nodup_range
        intro a b hab
        injection hab
      · intro ld
        rw [flat_mem]
        simp only [hat]
        unfold unitFlat
        rw [List.mem_map]
        constructor
        · rintro ⟨i, hi, rfl⟩
          exact ⟨0, List.mem_range.mp hi, rfl, rfl⟩
        · rintro ⟨g, h1, h2, -⟩
          refine ⟨ld.entityIndex, List.mem_range.mpr h1, ?_⟩
          rw [← h2]
  refine ⟨⟨?_, ?_, ?_, flat_mem _, flat_sorted _⟩, hcount, ?_, ?_, hflat, by simp [unitQueries, unitFlat], ?_⟩
  · intro ld g h
    have := ((hat ld g).mp h).2.2
    right; rw [hcount]; omega
  · intro g hg ld
    rw [hcount] at hg
    have : g = 0 := by omega
    subst this
    rw [hg0, hat, List.mem_map, hidx]
    constructor
    · rintro ⟨e, he, rfl⟩; exact ⟨⟨e, he, rfl⟩, rfl, rfl⟩
    · rintro ⟨⟨e, he, h1⟩, h2, -⟩
      exact ⟨e, he, by rw [h1, ← h2]⟩
  · intro g hg
    rw [hcount] at hg
    have : g = 0 := by omega
    subst this
    rw [hg0]
    have := hv.index_nodup
    refine List.Nodup.of_map (fun ld : LocalDof => ld.entityIndex) ?_
    rw [List.map_map]
    exact this
  · intro e he
    unfold DofMaps.getGlobalDofs
    rw [heq]
    simp [List.getD_eq_getElem?_getD, List.getElem?_replicate, index_lt v hv he]
  · intro ld
    rw [hg0, List.mem_map]
    constructor
    · rintro ⟨e, he, rfl⟩; exact ⟨e, he, rfl⟩
    · rintro ⟨e, he, rfl⟩; exact ⟨e, he, rfl⟩
  · have how : (unitQueries v).owners = List.replicate (v.count 0) 0 := by
      unfold SpaceQueries.owners unitQueries
      simp only
      have : ∀ i ∈ List.range (v.count 0),
          (((assignUnit v).getGlobalDofs i).filter fun g => 0 ≤ g).map Int.toNat = [0] := by
        intro i hi
        unfold DofMaps.getGlobalDofs
        rw [heq]
        simp [List.getD_eq_getElem?_getD, List.getElem?_replicate, List.mem_range.mp hi]
      rw [List.flatMap_congr this]
      generalize v.count 0 = n
      refine List.eq_replicate_iff.mpr ⟨by simp [List.length_flatMap], ?_⟩
      intro b hb
      have := (List.mem_flatMap.mp hb).choose_spec.2
      simpa using this
    refine ⟨_, by rw [mappingVectors_eq, how, if_neg (by simp [unitQueries])], ?_⟩
    intro i hi j
    rw [mappingEntry_range, List.getElem?_replicate, if_pos hi]
    simp [eq_comm]

/-- Non-vacuity of the statement on the space of constants. -/
example : (book 2).WF ∧ (assignUnit (book 2)).getGlobalDofs 1 = [0] ∧ (assignUnit (book 2)).global2local = [[⟨0, 0⟩, ⟨1, 0⟩]] :=
  ⟨book_WF 2 (by decide), by decide, by decide⟩

end Verif.Space
