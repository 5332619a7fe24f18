import Verif.Model.PotentialHMat
import Verif.Props.HMatAssembly
/-
Property C53 (potential operators in H-matrix mode).
-/
namespace Verif.Assembly
open Verif.Space Verif.HMat Verif.Grid Finset

/-- All (point, component, array index) of the lists. -/
def ComponentLists.entries (L : ComponentLists) : List (Nat × Nat × Nat) :=
  L.rows.flatMap fun r => r.2.map fun q => (r.1, q)

theorem computeComponentLists_ok (p2o : List Nat) (cc : Nat) (hcc : 0 < cc) (start count : Nat)
    (hlen : start + count ≤ p2o.length) :
    ∃ L, computeComponentLists p2o cc start count = some L ∧
      (count = 1 → L.rows = [(p2o.getD start 0 / cc, [(p2o.getD start 0 % cc, 0)])]) ∧
      L.entries.Perm ((List.range count).map fun i =>
        (p2o.getD (start + i) 0 / cc, p2o.getD (start + i) 0 % cc, i)) := by
  have hget : ∀ i, i < count → p2o[start + i]? = some (p2o.getD (start + i) 0) := by
    intro i hi
    rw [List.getD_eq_getElem?_getD, List.getElem?_eq_getElem (by omega)]; rfl
  unfold computeComponentLists
  split
  · rename_i h1
    subst h1
    unfold findComponentsOfIndex
    have h0 := hget 0 (by omega)
    rw [Nat.add_zero] at h0
    rw [if_neg (by omega), h0]
    exact ⟨_, rfl, fun _ => rfl, List.Perm.refl _⟩
  · rename_i h1
    unfold findComponents
    rw [if_neg (by omega), mapM_some _ _ (fun i => p2o.getD (start + i) 0)
      (fun i hi => hget i (List.mem_range.mp hi))]
    refine ⟨_, rfl, fun h => absurd h h1, ?_⟩
    have key := requireAll_perm (K := Unit) (((List.range count).map fun i => p2o.getD (start + i) 0).map fun g =>
      [((⟨g / cc, g % cc⟩ : LocalDof), ())]) (by
        intro d hd
        obtain ⟨g, -, rfl⟩ := List.mem_map.mp hd
        simp) 0 [] (by simp [mapEntries])
    rw [List.zipIdx_map, List.foldl_map] at key
    simp only [Prod.map_fst, Prod.map_snd, id_eq, List.foldl_cons, List.foldl_nil] at key
    generalize hm : (List.foldl _ [] (List.zipIdx _)) = m
    rw [hm] at key
    have e1 : ComponentLists.entries ⟨m.map fun r => (r.1, r.2.map fun q => q.1)⟩ =
        (mapEntries m).map fun y => (y.1, y.2.1) := by
      unfold ComponentLists.entries mapEntries
      simp only [List.flatMap_map, List.map_flatMap, List.map_map]
      rfl
    rw [e1]
    refine (key.map _).trans (List.Perm.of_eq ?_)
    simp only [mapEntries, List.flatMap_nil, List.nil_append, List.map_flatMap, List.map_map, List.zipIdx_map,
      List.flatMap_map, List.map_cons, List.map_nil]
    rw [range_zipIdx, List.flatMap_map, List.map_eq_flatMap]
    rfl

section
variable {K : Type} [CommRing K] [StarRing K] {D : Type}

theorem sum_compRows (L : ComponentLists) (f : Nat × Nat × Nat → K) :
    (L.rows.map fun r => (r.2.map fun q => f (r.1, q)).sum).sum = (L.entries.map f).sum := by
  unfold ComponentLists.entries
  rw [sum_flatMap]
  simp only [List.map_map]
  rfl

/-- What one pair of list entries adds to `(i, j)`. -/
def potTerm (form : D → Nat → Nat → Nat → Nat → K) (minDist : D) (i j : Int) (x : Nat × Nat × Nat)
    (y : Nat × Nat × K × Nat) : K :=
  if (x.2.2 : Int) = i ∧ (y.2.2.2 : Int) = j then y.2.2.1 * form minDist x.1 y.1 x.2.1 y.2.1 else 0

theorem potentialBlockAdditions_ok (form : D → Nat → Nat → Nat → Nat → K) (minDist : D) (comps : ComponentLists)
    (trial : LocalDofLists K) (nt nu : Nat) (hone : nt = 1 → ∃ p c, comps.rows = [(p, [(c, 0)])])
    (ht : ∀ x ∈ comps.entries, x.2.2 < nt) (hu : ∀ y ∈ trial.entries, y.2.2.2 < nu) :
    ∃ us, potentialBlockAdditions form minDist comps trial nt nu = some us ∧ (∀ w ∈ us, InRange nt nu w) ∧
      ∀ i j : Int, contrib us i j =
        (trial.entries.map fun y => (comps.entries.map fun x => potTerm form minDist i j x y).sum).sum := by
  have et : ∀ t ∈ comps.rows, ∀ x ∈ t.2, x.2 < nt := fun t h1 x h2 =>
    ht (t.1, x) (List.mem_flatMap.mpr ⟨t, h1, List.mem_map.mpr ⟨x, h2, rfl⟩⟩)
  have eu : ∀ t ∈ trial.rows, ∀ x ∈ t.2, x.2.2 < nu := fun t h1 x h2 =>
    hu (t.1, x) (List.mem_flatMap.mpr ⟨t, h1, List.mem_map.mpr ⟨x, h2, rfl⟩⟩)
  unfold potentialBlockAdditions
  split
  · rename_i h
    refine ⟨_, rfl, ?_, ?_⟩
    · intro w hw
      simp only [List.mem_flatMap, List.mem_map] at hw
      obtain ⟨u, hu', y, hy, t, ht', x, hx, rfl⟩ := hw
      have := et t ht' x hx
      unfold InRange; simp only; omega
    · intro i j
      simp only [contrib_flatMap, contrib_map]
      rw [sum_rows trial (fun y => (comps.rows.map fun p => (p.2.map fun x =>
        if (x.2 : Int) = i ∧ (0 : Int) = j then y.2.2.1 * form minDist p.1 y.1 x.1 y.2.1 else 0).sum).sum)]
      congr 1
      refine List.map_congr_left fun y hy => ?_
      rw [sum_compRows comps (fun x => if (x.2.2 : Int) = i ∧ (0 : Int) = j then
        y.2.2.1 * form minDist x.1 y.1 x.2.1 y.2.1 else 0)]
      congr 1
      refine List.map_congr_left fun x _ => ?_
      unfold potTerm
      have : y.2.2.2 = 0 := by have := hu y hy; omega
      rw [this]; rfl
  · split
    · rename_i h
      obtain ⟨p, c, hpc⟩ := hone h
      refine ⟨trial.rows.flatMap fun u => u.2.map fun y =>
        ((0 : Int), (y.2.2 : Int), y.2.1 * form minDist p u.1 c y.1), by rw [hpc]; rfl, ?_, ?_⟩
      · intro w hw
        simp only [List.mem_flatMap, List.mem_map] at hw
        obtain ⟨u, hu', y, hy, rfl⟩ := hw
        have := eu u hu' y hy
        unfold InRange; simp only; omega
      · intro i j
        simp only [contrib_flatMap, contrib_map]
        rw [sum_rows trial (fun y => if (0 : Int) = i ∧ (y.2.2.2 : Int) = j then
          y.2.2.1 * form minDist p y.1 c y.2.1 else 0)]
        congr 1
        refine List.map_congr_left fun y hy => ?_
        simp [ComponentLists.entries, hpc, potTerm]
    · refine ⟨_, rfl, ?_, ?_⟩
      · intro w hw
        simp only [List.mem_flatMap, List.mem_map] at hw
        obtain ⟨u, hu', y, hy, t, ht', x, hx, rfl⟩ := hw
        have := et t ht' x hx
        have := eu u hu' y hy
        unfold InRange; simp only; omega
      · intro i j
        simp only [contrib_flatMap, contrib_map]
        rw [sum_rows trial (fun y => (comps.rows.map fun p => (p.2.map fun x =>
          if (x.2 : Int) = i ∧ (y.2.2.2 : Int) = j then y.2.2.1 * form minDist p.1 y.1 x.1 y.2.1 else 0).sum).sum)]
        congr 1
        refine List.map_congr_left fun y hy => ?_
        exact sum_compRows comps (fun x => potTerm form minDist i j x y)

/-- **C53** (blocks) For all valid trial spaces, numbers of components, dof orderings and index ranges, whichever of
the three strategies is used: the block is generated without undefined behaviour, and its entry `(i, j)`
belongs to the point and component of the original row `p2oRow[r0+i]` (point = row / componentCount,
component = row % componentCount, the row numbering of the dense assembler) and the original trial dof
`p2oCol[c0+j]`. -/
theorem C53_block_entries (U : ASpace K) (hU : U.Valid) (components : Nat) (hcomp : 0 < components)
    (p2oRow p2oCol : List Nat) (hC : ∀ k, k < p2oCol.length → p2oCol.getD k 0 < U.globalDofCount)
    (form : D → Nat → Nat → Nat → Nat → K) (minDist : D) (r0 r1 c0 c1 : Nat) (hr : r0 ≤ r1)
    (hr1 : r1 ≤ p2oRow.length) (hc : c0 ≤ c1) (hc1 : c1 ≤ p2oCol.length) :
    ∃ M, potentialMatrixBlock U components p2oRow p2oCol form minDist r0 r1 c0 c1 = some M ∧
      M.rows = r1 - r0 ∧ M.cols = c1 - c0 ∧
      ∀ i j : Nat, i < M.rows → j < M.cols → M.e i j =
        potentialEntry U (form minDist) (p2oRow.getD (r0 + i) 0 / components)
          (p2oRow.getD (r0 + i) 0 % components) (p2oCol.getD (c0 + j) 0) := by
  obtain ⟨LT, hLT, hone, hpT⟩ := computeComponentLists_ok p2oRow components hcomp r0 (r1 - r0) (by omega)
  obtain ⟨LU, hLU, -, hpU⟩ := computeDofLists_ok U hU p2oCol c0 (c1 - c0) (by omega) hC
  have hmT : ∀ x ∈ LT.entries, x.2.2 < r1 - r0 := by
    intro x hx
    obtain ⟨k, hk, rfl⟩ := List.mem_map.mp (hpT.mem_iff.mp hx)
    exact List.mem_range.mp hk
  have hmU : ∀ x ∈ LU.entries, x.2.2.2 < c1 - c0 := by
    intro x hx
    obtain ⟨k, hk, hx⟩ := List.mem_flatMap.mp (hpU.mem_iff.mp hx)
    obtain ⟨ld, -, rfl⟩ := List.mem_map.mp hx
    exact List.mem_range.mp hk
  obtain ⟨us, hus, hin, hcon⟩ := potentialBlockAdditions_ok form minDist LT LU (r1 - r0) (c1 - c0)
    (fun h => ⟨_, _, hone h⟩) hmT hmU
  obtain ⟨M, h1, h2, h3, h4⟩ := addAll_ok us (Mx.zero (r1 - r0) (c1 - c0)) hin
  refine ⟨M, ?_, h2, h3, ?_⟩
  · unfold potentialMatrixBlock
    rw [hLT, hLU]
    simp only [Option.bind_eq_bind, Option.bind_some]
    rw [hus]
    exact h1
  · intro i j hi hj
    have hi' : i < r1 - r0 := by rw [h2] at hi; exact hi
    have hj' : j < c1 - c0 := by rw [h3] at hj; exact hj
    rw [h4, hcon]
    simp only [Mx.zero, zero_add]
    have step : ∀ y : Nat × Nat × K × Nat, (LT.entries.map fun x => potTerm form minDist i j x y).sum =
        if y.2.2.2 = j then (fun e b w => w * form minDist (p2oRow.getD (r0 + i) 0 / components) e
          (p2oRow.getD (r0 + i) 0 % components) b) y.1 y.2.1 y.2.2.1 else 0 := by
      intro y
      rw [(hpT.map _).sum_eq, List.map_map]
      have : ∀ k, ((fun x => potTerm form minDist i j x y) ∘ fun i =>
          (p2oRow.getD (r0 + i) 0 / components, p2oRow.getD (r0 + i) 0 % components, i)) k =
          if k = i then (if y.2.2.2 = j then y.2.2.1 * form minDist (p2oRow.getD (r0 + k) 0 / components) y.1
            (p2oRow.getD (r0 + k) 0 % components) y.2.1 else 0) else 0 := by
        intro k
        simp only [Function.comp_apply, potTerm, Nat.cast_inj]
        by_cases h : k = i <;> simp [h]
      rw [List.map_congr_left (fun k _ => this k), sum_range_pick _ i hi']
    rw [List.map_congr_left (fun y _ => step y)]
    exact sum_entries U hU p2oCol c0 (c1 - c0) LU (by omega) hC hpU j hj' (fun e b w =>
      w * form minDist (p2oRow.getD (r0 + i) 0 / components) e (p2oRow.getD (r0 + i) 0 % components) b)

/-- **C53** If the integrals do not depend on the nominal distance, each generated block is the corresponding
(permuted) block of the densely assembled potential operator. -/
theorem C53_block_of_dense (U : ASpace K) (hU : U.Valid) (points components : Nat) (hcomp : 0 < components)
    (p2oRow p2oCol : List Nat) (hR : ∀ k, k < p2oRow.length → p2oRow.getD k 0 < points * components)
    (hC : ∀ k, k < p2oCol.length → p2oCol.getD k 0 < U.globalDofCount)
    (form : Nat → Nat → Nat → Nat → K) (minDist : D) (r0 r1 c0 c1 : Nat) (hr : r0 ≤ r1)
    (hr1 : r1 ≤ p2oRow.length) (hc : c0 ≤ c1) (hc1 : c1 ≤ p2oCol.length) (A : Mx K)
    (hA : PotentialRun points components U form (some A)) :
    ∃ M, potentialMatrixBlock U components p2oRow p2oCol (fun _ => form) minDist r0 r1 c0 c1 = some M ∧
      M.rows = r1 - r0 ∧ M.cols = c1 - c0 ∧
      ∀ i j : Nat, i < M.rows → j < M.cols →
        M.e i j = A.e (p2oRow.getD (r0 + i) 0) (p2oCol.getD (c0 + j) 0) := by
  obtain ⟨M, h1, h2, h3, h4⟩ := C53_block_entries U hU components hcomp p2oRow p2oCol hC (fun _ => form) minDist
    r0 r1 c0 c1 hr hr1 hc hc1
  obtain ⟨A', q1, q2, q3, q4⟩ := C45_potential_assembly points components U hU form _ hA
  injection q1 with q1; subst q1
  refine ⟨M, h1, h2, h3, fun i j hi hj => ?_⟩
  have hlt := hR (r0 + i) (by omega)
  have := q4 (p2oRow.getD (r0 + i) 0 / components) (p2oRow.getD (r0 + i) 0 % components) (p2oCol.getD (c0 + j) 0)
    ((Nat.div_lt_iff_lt_mul hcomp).mpr hlt) (Nat.mod_lt _ hcomp) (by rw [q3]; exact hC _ (by omega))
  rw [h4 i j hi hj, ← this, mul_comm, Nat.div_add_mod]

end

/-! ### Geometry -/

theorem nextEntities_from (points cc : Nat) (hcc : 0 < cc) : ∀ (fuel p c : Nat), c < cc → p ≤ points →
    points * cc - (p * cc + c) < fuel → (p = points → c = 0) →
    nextEntities points cc fuel p c = (List.range' (p * cc + c) (points * cc - (p * cc + c))).map fun k => k / cc := by
  intro fuel
  induction fuel with
  | zero => intro p c _ _ h; omega
  | succ fuel ih =>
    intro p c hc hp hf hz
    unfold nextEntities
    split
    · rename_i h
      subst h
      rw [hz rfl]; simp
    · rename_i h
      have hlt : p * cc + cc ≤ points * cc := by
        have := Nat.mul_le_mul_right cc (show p + 1 ≤ points by omega)
        rwa [Nat.succ_mul] at this
      have e1 : points * cc - (p * cc + c) = (points * cc - (p * cc + c + 1)) + 1 := by omega
      have e2 : (p * cc + c) / cc = p := by
        rw [mul_comm, Nat.mul_add_div hcc, Nat.div_eq_of_lt hc, Nat.add_zero]
      rw [e1, List.range'_succ, List.map_cons, e2]
      congr 1
      split
      · rename_i h2
        rw [ih (p + 1) 0 hcc (by omega) (by rw [Nat.succ_mul]; omega) (fun _ => rfl)]
        have : (p + 1) * cc + 0 = p * cc + c + 1 := by rw [Nat.succ_mul]; omega
        rw [this]
      · rw [ih p (c + 1) (by omega) hp (by omega) (fun h3 => absurd h3 h)]
        rfl

/-- **C53** (geometry) For every number of points and components per point (at least one), the geometry built for
the rows of a potential operator has one entry per row, and entry `k` is located at point `k / componentCount`, the
point that the block generator and the dense assembler assign to row `k`. -/
theorem C53_geometry (points components : Nat) (hcomp : 0 < components) (fuel : Nat)
    (hf : points * components < fuel) :
    nextEntities points components fuel 0 0 = (List.range (points * components)).map fun k => k / components := by
  rw [nextEntities_from points components hcomp fuel 0 0 hcomp (Nat.zero_le _) (by simpa using hf) (fun _ => rfl)]
  simp [List.range_eq_range']

/-! ### Volumes -/

/-- **C53 is false for several components per point**: whenever there are at least two components and one point, the
H-matrix has a row for which the potential assembly helper supplies no volume, although the ACA compressor
reads the volume of every row it visits (`hmatrix_aca_compressor_impl.hpp:86-87, 123-124`): an out-of-bounds
read. -/
theorem C53_counterexample_volumes {V : Type} [One V] (points components : Nat) (hp : 0 < points) (hc : 2 ≤ components) :
    ∃ row, row < points * components ∧ (potentialTestVolumes (V := V) points)[row]? = none := by
  refine ⟨points, ?_, by simp [potentialTestVolumes]⟩
  have := Nat.mul_le_mul_left points hc
  omega

/-- **C53** (partial: one component per point) every row of the H-matrix has a volume, and it is 1. -/
theorem C53_test_volumes_partial {V : Type} [One V] (points : Nat) (row : Nat) (h : row < points * 1) :
    (potentialTestVolumes (V := V) points)[row]? = some 1 := by
  unfold potentialTestVolumes
  rw [List.getElem?_replicate, if_pos (by omega)]

theorem lowerVolumes_ok {V : Type} [LinearOrder V] (us : List (Nat × V)) : ∀ vs : List V, (∀ u ∈ us, u.1 < vs.length) →
    ∃ ws, us.foldlM lowerVolume vs = some ws ∧ ws.length = vs.length ∧
      ∀ k v, vs[k]? = some v → ∃ w, ws[k]? = some w ∧ w ≤ v ∧ (∀ u ∈ us, u.1 = k → w ≤ u.2) ∧
        (w = v ∨ ∃ u ∈ us, u.1 = k ∧ w = u.2) := by
  induction us with
  | nil => intro vs _; exact ⟨vs, rfl, rfl, fun k v h => ⟨v, h, le_rfl, by simp, Or.inl rfl⟩⟩
  | cons u us ih =>
    intro vs hin
    have hu := hin u List.mem_cons_self
    obtain ⟨ws, h1, h2, h3⟩ := ih (vs.set u.1 (min vs[u.1] u.2)) (by
      intro x hx
      rw [List.length_set]; exact hin x (List.mem_cons_of_mem _ hx))
    refine ⟨ws, ?_, by rw [h2, List.length_set], ?_⟩
    · rw [List.foldlM_cons]
      have : lowerVolume vs u = some (vs.set u.1 (min vs[u.1] u.2)) := by
        unfold lowerVolume
        rw [List.getElem?_eq_getElem hu]; rfl
      rw [this]; exact h1
    · intro k v hv
      by_cases hk : u.1 = k
      · subst hk
        have hv' : vs[u.1] = v := by rw [List.getElem?_eq_getElem hu] at hv; injection hv
        obtain ⟨w, q1, q2, q3, q4⟩ := h3 u.1 (min vs[u.1] u.2) (by rw [List.getElem?_set_self hu])
        refine ⟨w, q1, (q2.trans (min_le_left _ _)).trans hv'.le, ?_, ?_⟩
        · intro x hx hxk
          rcases List.mem_cons.mp hx with rfl | hx
          · exact q2.trans (min_le_right _ _)
          · exact q3 x hx hxk
        · rcases q4 with q4 | ⟨x, hx, e1, e2⟩
          · rcases min_choice vs[u.1] u.2 with h | h
            · left; rw [q4, h, hv']
            · right; exact ⟨u, List.mem_cons_self, rfl, by rw [q4, h]⟩
          · right; exact ⟨x, List.mem_cons_of_mem _ hx, e1, e2⟩
      · obtain ⟨w, q1, q2, q3, q4⟩ := h3 k v (by rw [List.getElem?_set_ne hk]; exact hv)
        refine ⟨w, q1, q2, ?_, ?_⟩
        · intro x hx hxk
          rcases List.mem_cons.mp hx with rfl | hx
          · exact absurd hxk hk
          · exact q3 x hx hxk
        · rcases q4 with q4 | ⟨x, hx, e1, e2⟩
          · exact Or.inl q4
          · right; exact ⟨x, List.mem_cons_of_mem _ hx, e1, e2⟩

/-- **C53** (volumes of dofs) For every valid space and every dof ordering covering all its dofs, the volume computed for
H-matrix index `k` is the smallest volume of the elements in the support of the original dof `p2o[k]`
(`maxV` if there is none): no read or write is out of bounds, it is a lower bound of those volumes, and it is
attained. -/
theorem C53_dof_volumes {K V : Type} [CommRing K] [StarRing K] [LinearOrder V] (sp : ASpace K) (hv : sp.Valid) (p2o : List Nat)
    (hlen : p2o.length = sp.globalDofCount) (hp : ∀ k, k < p2o.length → p2o.getD k 0 < sp.globalDofCount)
    (vol : Nat → V) (maxV : V) (hmax : ∀ e, vol e ≤ maxV) :
    ∃ vs, spaceVolumes sp p2o vol maxV = some vs ∧ vs.length = sp.globalDofCount ∧
      ∀ k, k < sp.globalDofCount → ∃ w, vs[k]? = some w ∧
        (∀ e a, sp.maps.At ⟨e, a⟩ (p2o.getD k 0 : Nat) → w ≤ vol e) ∧
        ((∃ e a, sp.maps.At ⟨e, a⟩ (p2o.getD k 0 : Nat) ∧ w = vol e) ∨
          ((∀ e a, ¬ sp.maps.At ⟨e, a⟩ (p2o.getD k 0 : Nat)) ∧ w = maxV)) := by
  obtain ⟨L, hL, -, hperm⟩ := computeDofLists_ok sp hv p2o 0 sp.globalDofCount (by omega) hp
  have hmem : ∀ u : Nat × V, u ∈ (L.rows.flatMap fun r => r.2.map fun q => (q.2.2, vol r.1)) ↔
      ∃ x ∈ L.entries, u = (x.2.2.2, vol x.1) := by
    intro u
    unfold LocalDofLists.entries
    simp only [List.mem_flatMap, List.mem_map]
    constructor
    · rintro ⟨r, hr, q, hq, rfl⟩
      exact ⟨(r.1, q), ⟨r, hr, q, hq, rfl⟩, rfl⟩
    · rintro ⟨x, ⟨r, hr, q, hq, rfl⟩, rfl⟩
      exact ⟨r, hr, q, hq, rfl⟩
  have hent : ∀ x, x ∈ L.entries ↔ ∃ i, i < sp.globalDofCount ∧ ∃ ld, sp.maps.At ld (p2o.getD i 0 : Nat) ∧
      x = (ld.entityIndex, ld.dofIndex, sp.weight ld.entityIndex ld.dofIndex, i) := by
    intro x
    rw [hperm.mem_iff]
    simp only [List.mem_flatMap, List.mem_map, List.mem_range, Nat.zero_add]
    constructor
    · rintro ⟨i, hi, ld, hld, rfl⟩
      exact ⟨i, hi, ld, (hv.consistent.inverse _ (hp i (by omega)) ld).mp hld, rfl⟩
    · rintro ⟨i, hi, ld, hld, rfl⟩
      exact ⟨i, hi, ld, (hv.consistent.inverse _ (hp i (by omega)) ld).mpr hld, rfl⟩
  obtain ⟨ws, h1, h2, h3⟩ := lowerVolumes_ok (L.rows.flatMap fun r => r.2.map fun q => (q.2.2, vol r.1))
    (List.replicate sp.globalDofCount maxV) (by
      intro u hu
      obtain ⟨x, hx, rfl⟩ := (hmem u).mp hu
      obtain ⟨i, hi, ld, -, rfl⟩ := (hent x).mp hx
      simpa using hi)
  refine ⟨ws, ?_, by rw [h2, List.length_replicate], ?_⟩
  · unfold spaceVolumes
    rw [hL]; exact h1
  · intro k hk
    obtain ⟨w, q1, q2, q3, q4⟩ := h3 k maxV (by rw [List.getElem?_replicate, if_pos hk])
    have hall : ∀ e a, sp.maps.At ⟨e, a⟩ (p2o.getD k 0 : Nat) → w ≤ vol e := by
      intro e a hat
      exact q3 (k, vol e) ((hmem _).mpr ⟨_, (hent _).mpr ⟨k, hk, ⟨e, a⟩, hat, rfl⟩, rfl⟩) rfl
    refine ⟨w, q1, hall, ?_⟩
    rcases q4 with q4 | ⟨u, hu, e1, e2⟩
    · by_cases hex : ∃ e a, sp.maps.At ⟨e, a⟩ (p2o.getD k 0 : Nat)
      · obtain ⟨e, a, hat⟩ := hex
        left
        exact ⟨e, a, hat, le_antisymm (hall e a hat) (by rw [q4]; exact hmax e)⟩
      · right
        exact ⟨fun e a h => hex ⟨e, a, h⟩, q4⟩
    · obtain ⟨x, hx, rfl⟩ := (hmem u).mp hu
      obtain ⟨i, hi, ld, hat, rfl⟩ := (hent x).mp hx
      simp only at e1 e2
      subst e1
      exact Or.inl ⟨ld.entityIndex, ld.dofIndex, hat, e2⟩

/-- Non-vacuity of C53: two points with three components each over the triangle, permuted rows; the volumes of the
triangle's dofs. -/
example : (∃ M, potentialMatrixBlock triSpace 3 [5, 4, 3, 2, 1, 0] [2, 0, 1] (fun (_ : Int) p e c b =>
      ((100 * p + 10 * c + b + e : Nat) : Int)) 7 1 3 0 3 = some M ∧ M.rows = 2 ∧ M.e 0 1 = 110) ∧
    spaceVolumes triSpace [2, 0, 1] (fun e => e + 4) 100 = some [4, 4, 4] ∧
    nextEntities 2 3 10 0 0 = [0, 0, 0, 1, 1, 1] := by
  refine ⟨?_, by decide, by decide⟩
  obtain ⟨M, h1, h2, h3, h4⟩ := C53_block_entries triSpace triSpace_valid 3 (by decide) [5, 4, 3, 2, 1, 0] [2, 0, 1]
    (by decide) (fun (_ : Int) p e c b => ((100 * p + 10 * c + b + e : Nat) : Int)) 7 1 3 0 3 (by decide)
    (by decide) (by decide) (by decide)
  refine ⟨M, h1, h2, ?_⟩
  rw [h4 0 1 (by omega) (by omega)]
  decide

end Verif.Assembly
