import Verif.Model.SpaceVector
import Verif.Spec.SpaceVector
import Verif.Props.SpaceBarycentric
import Verif.Props.SpaceRWG
import Verif.Props.ShapeTransformation
/-
Property C69: the vector spaces on the barycentric refinement describe the functions of the coarse spaces.
-/
namespace Verif.Space
open Verif.Grid Verif.Shape

/-! ### Numbering -/

theorem numberBlocks_congr {α : Type} (cnt cnt' : α → Nat) (keep : α → Int) : ∀ (l : List α) (n : Nat),
    (∀ x ∈ l, cnt x = cnt' x) → numberBlocks cnt keep l n = numberBlocks cnt' keep l n := by
  intro l
  induction l with
  | nil => intro n _; rfl
  | cons x xs ih =>
    intro n h
    simp only [numberBlocks]
    rw [h x List.mem_cons_self, ih _ (fun y hy => h y (List.mem_cons_of_mem _ hy)),
      ih _ (fun y hy => h y (List.mem_cons_of_mem _ hy))]

section
variable (v : View) (hv : v.WF) (hd : v.dim = 2)
include hv hd

theorem scan_whole (mode : DofMode) : rwgScan v (wholeGrid v) mode = baryScan v := by
  unfold baryScan
  rw [rwgScan_eq v hv, rwgScan_eq v hv]
  refine List.map_congr_left fun f hf => ?_
  have hf' := List.mem_range.mp hf
  rw [countedElems_eq v (wholeGrid v) mode f (fun _ => contains_wholeGrid v 1 f (by omega) hf'),
    countedElems_eq v (wholeGrid v) ⟨false, false⟩ f (fun h => by cases h)]

theorem numbering_whole (mode : DofMode) (pb : Bool) (hman : ∀ f, (adjacentElems v f).length ≤ 2) :
    rwgNumbering v (wholeGrid v) mode pb = baryNumbering v pb := by
  unfold rwgNumbering baryNumbering
  rw [scan_whole v hv hd mode]
  refine numberBlocks_congr _ _ _ _ _ ?_
  intro x hx
  unfold baryScan at hx
  rw [rwgScan_eq v hv] at hx
  obtain ⟨f, hf, rfl⟩ := List.mem_map.mp hx
  have hf' := List.mem_range.mp hf
  rw [countedElems_eq v (wholeGrid v) ⟨false, false⟩ f (fun h => by cases h)]
  have h0 : 1 ≤ (adjacentElems v f).length := by
    obtain ⟨e, he, hfe⟩ := hv.covered 1 f (by omega) hf'
    refine List.length_pos_of_mem (a := e) (List.mem_filter.mpr ⟨he, ?_⟩)
    rcases hfe with hfe | hfe
    · omega
    · simpa using hfe.2
  have hnone : (((adjacentElems v f).foldl (scanUpdate (wholeGrid v)) ⟨0, true, none⟩).noneInSegment) = false := by
    rw [Bool.eq_false_iff]
    intro hc
    rw [scan_none] at hc
    obtain ⟨e, he⟩ := List.exists_mem_of_length_pos h0
    have h1 := hc.2 e he
    have h2 := (inSegment_iff (wholeGrid v) 0 e.index).mpr
      (contains_wholeGrid v 0 _ (by omega) (index_lt v hv (List.mem_filter.mp he).1))
    rw [h1] at h2; cases h2
  have h2 := hman f
  rw [scan_adjacent, hnone]
  generalize (adjacentElems v f).length = n at *
  have : n = 1 ∨ n = 2 := by omega
  rcases this with rfl | rfl <;> cases pb <;> simp

end

/-! ### Geometry of a son -/

/-- The linear part of the map from a son to its father. -/
noncomputable def sonLinear (k : Nat) (v : ℝ × ℝ) : ℝ × ℝ :=
  ((sonCoord k v).1 - (sonCoord k (0, 0)).1, (sonCoord k v).2 - (sonCoord k (0, 0)).2)

section
variable (g : GridData ℝ) (hg : g.Valid) (b : GridData ℝ) (s : Nat → Nat → Nat)
  (hb : barycentricGridSonPair g = .ok (b, s)) (e : Nat) (t : Tri) (ht : g.data.elements[e]? = some t)
  (hn : areaVector (nodeAt g.nodes t.a) (nodeAt g.nodes t.b) (nodeAt g.nodes t.c) ≠ ⟨0, 0, 0⟩)
  (k : Nat) (hk : k < 6) (son : Tri) (hson : b.data.elements[s e k]? = some son)
include hg hb ht hk hson

/-- The data of a triangle of a grid. -/
noncomputable def triData (g : GridData ℝ) (t : Tri) : GeomData :=
  fullData (nodeAt g.nodes t.a) (nodeAt g.nodes t.b) (nodeAt g.nodes t.c)

theorem son_displacement (u w : ℝ) :
    displacement (nodeAt b.nodes son.a) (nodeAt b.nodes son.b) (nodeAt b.nodes son.c) u w =
      displacement (nodeAt g.nodes t.a) (nodeAt g.nodes t.b) (nodeAt g.nodes t.c)
        (sonLinear k (u, w)).1 (sonLinear k (u, w)).2 := by
  have h0 := son_refMap g hg b s hb e t ht k hk son hson (0, 0)
  have h1 := son_refMap g hg b s hb e t ht k hk son hson (u, w)
  simp only [refMap, P3.mk.injEq] at h0 h1
  simp only [displacement, P3.mk.injEq, sonLinear]
  refine ⟨?_, ?_, ?_⟩
  · linear_combination h1.1 - h0.1
  · linear_combination h1.2.1 - h0.2.1
  · linear_combination h1.2.2 - h0.2.2

theorem son_area : areaVector (nodeAt b.nodes son.a) (nodeAt b.nodes son.b) (nodeAt b.nodes son.c) =
    (areaVector (nodeAt g.nodes t.a) (nodeAt g.nodes t.b) (nodeAt g.nodes t.c)).smul (1 / 6) := by
  obtain ⟨son', h1, h2⟩ := C34_area (by norm_num) (by norm_num) g hg b s hb e t ht k hk
  rw [hson] at h1
  cases h1
  exact h2

include hn

theorem son_nondegenerate :
    areaVector (nodeAt b.nodes son.a) (nodeAt b.nodes son.b) (nodeAt b.nodes son.c) ≠ ⟨0, 0, 0⟩ := by
  rw [son_area g hg b s hb e t ht k hk son hson]
  intro h
  apply hn
  have hx := congrArg P3.x h
  have hy := congrArg P3.y h
  have hz := congrArg P3.z h
  generalize areaVector (nodeAt g.nodes t.a) (nodeAt g.nodes t.b) (nodeAt g.nodes t.c) = a at *
  simp only [P3.smul] at hx hy hz
  have hx : a.x = 0 := by linarith
  have hy : a.y = 0 := by linarith
  have hz : a.z = 0 := by linarith
  cases a
  simp only at hx hy hz
  rw [hx, hy, hz]

theorem son_ie : (triData b son).integrationElement = (triData g t).integrationElement / 6 := by
  have h1 := (C71_integration_element _ _ _ hn).2
  have h2 := (C71_integration_element _ _ _ (son_nondegenerate g hg b s hb e t ht hn k hk son hson)).2
  show _ = _
  unfold triData
  rw [h1, h2, son_area g hg b s hb e t ht k hk son hson]
  generalize areaVector (nodeAt g.nodes t.a) (nodeAt g.nodes t.b) (nodeAt g.nodes t.c) = a
  have : (P3.smul (1 / 6) a).dot (P3.smul (1 / 6) a) = (1 / 6) ^ 2 * a.dot a := by
    simp only [P3.dot, P3.smul]; ring
  rw [this, Real.sqrt_mul (by positivity), Real.sqrt_sq (by norm_num)]
  ring

theorem son_normal : (triData b son).normal = (triData g t).normal := by
  have h3 := son_ie g hg b s hb e t ht hn k hk son hson
  have hi := (ie_pos _ _ _ hn).ne'
  unfold triData at *
  rw [normal_eq _ _ _ hn, normal_eq _ _ _ (son_nondegenerate g hg b s hb e t ht hn k hk son hson), h3,
    son_area g hg b s hb e t ht k hk son hson]
  simp only [P3.smul, P3.mk.injEq]
  refine ⟨?_, ?_, ?_⟩ <;> field_simp

/-- The H(div) value in a son is that of the reference value carried over to the father and scaled with the ratio of areas. -/
theorem son_hdiv (x : BasisAt) (y : BasisAt) (hy : y.v0 = 6 * (sonLinear k (x.v0, x.v1)).1 ∧ y.v1 = 6 * (sonLinear k (x.v0, x.v1)).2) :
    hdivValue x (triData b son) = hdivValue y (triData g t) := by
  have hi := (ie_pos _ _ _ hn).ne'
  have h3 := son_ie g hg b s hb e t ht hn k hk son hson
  unfold triData at *
  rw [hdiv_tangential, hdiv_tangential, h3, son_displacement g hg b s hb e t ht k hk son hson, hy.1, hy.2]
  generalize (fullData (nodeAt g.nodes t.a) (nodeAt g.nodes t.b) (nodeAt g.nodes t.c)).integrationElement = i at *
  have : ∀ u w c : ℝ, (sonLinear k (u * c, w * c)) = ((sonLinear k (u, w)).1 * c, (sonLinear k (u, w)).2 * c) := by
    intro u w c
    unfold sonLinear
    interval_cases k <;> simp only [sonCoord, Prod.mk.injEq] <;> constructor <;> ring
  have e1 : x.v0 / (i / 6) = x.v0 * (6 / i) := by field_simp
  have e2 : x.v1 / (i / 6) = x.v1 * (6 / i) := by field_simp
  rw [e1, e2, this]
  congr 1 <;> ring

end

/-- The barycentric Raviart-Thomas functions are the coarse ones: reference values. -/
theorem rtBary_son (k : Nat) (hk : k < 6) (j : Nat) (hj : j < 3) (p : ℝ × ℝ) :
    let x := rtBaryShape (if k % 2 = 0 then .TYPE1 else .TYPE2) j p
    (rtShape (element2Basis k j) (sonCoord k p)).v0 = 6 * (sonLinear k (x.v0, x.v1)).1 ∧
    (rtShape (element2Basis k j) (sonCoord k p)).v1 = 6 * (sonLinear k (x.v0, x.v1)).2 := by
  interval_cases k <;> interval_cases j <;>
  · simp [rtBaryShape, combine, rtCoeffs, element2Basis, rtShape, sonLinear, sonCoord, List.range_succ]
    constructor <;> ring

/-- Their reference divergence is a sixth of that of the coarse functions. -/
theorem rtBary_div (t : BaryType) (j : Nat) (hj : j < 3) (p : ℝ × ℝ) :
    (rtBaryShape t j p).d00 + (rtBaryShape t j p).d11 = 1 / 3 := by
  cases t <;> interval_cases j <;>
  · simp [rtBaryShape, combine, rtCoeffs, rtShape, List.range_succ]
    norm_num

theorem expandW_three (a b c : Int) (x y z : ℝ) (co : Nat → ℝ) (shape : Nat → ℝ) :
    expandW [a, b, c] [x, y, z] co shape =
      (if 0 ≤ a then co a.toNat * x * shape 0 else 0) + (if 0 ≤ b then co b.toNat * y * shape 1 else 0) +
        (if 0 ≤ c then co c.toNat * z * shape 2 else 0) := by
  simp [expandW]; ring

/-! ### Rows -/

/-- Weights of the coarse space on the element with index `e`. -/
noncomputable def coarseWeights (v : View) (mode : DofMode) (vol : Nat → ℝ) (e : Nat) : List ℝ :=
  ((v.elems[e]?).map (rwgWeights v (wholeGrid v) mode vol)).getD []

section
variable (g : GridData ℝ) (hg : g.Valid) (hused : AllUsed g) (b : GridData ℝ) (s : Nat → Nat → Nat)
  (hb : barycentricGridSonPair g = .ok (b, s)) (domain : Nat → Int) (mode : DofMode) (pb : Bool) (vol : Nat → ℝ)
  (hman : ∀ f, (adjacentElems (g.data.view domain) f).length ≤ 2)
include hg hused hman

theorem view_triangular : Triangular (g.data.view domain) := by
  refine ⟨rfl, ?_⟩
  intro e he
  obtain ⟨n, hn⟩ := List.getElem?_of_mem he
  obtain ⟨t, -, -, hs, -⟩ := view_elem' g.data domain n e hn
  rw [hs]; rfl

/-- The coarse row. -/
theorem coarse_row (e : Nat) (x : Elem) (hx : (g.data.view domain).elems[e]? = some x) (f0 f1 f2 : Nat)
    (hf : x.sub 1 = [f0, f1, f2]) : ∃ m, assignRWG (g.data.view domain) (wholeGrid (g.data.view domain)) mode pb = .ok m ∧
      m.globalDofCount = (baryNumbering (g.data.view domain) pb).2 ∧
      m.getGlobalDofs x.index = [(baryNumbering (g.data.view domain) pb).1.getD f0 (-1),
        (baryNumbering (g.data.view domain) pb).1.getD f1 (-1), (baryNumbering (g.data.view domain) pb).1.getD f2 (-1)] := by
  have hv := gridView_wf g hg hused domain
  have ht := view_triangular g hg hused domain hman
  have hgood := rwg_good (g.data.view domain) hv rfl (wholeGrid (g.data.view domain)) mode pb
  have hnum := numbering_whole (g.data.view domain) hv rfl mode pb hman
  refine ⟨_, assignRWG_ok _ ht _ mode pb, ?_, ?_⟩
  · rw [writeElements_count, hnum]
  · have hm := List.mem_of_getElem? hx
    rw [writeElements_row hgood hm]
    have hin : inSegment (wholeGrid (g.data.view domain)) 0 x.index = true :=
      (inSegment_iff _ _ _).mpr (contains_wholeGrid _ 0 _ (by omega) (index_lt _ hv hm))
    unfold rowOf rwgWrites
    rw [hnum, hin]
    simp only [hf]
    simp

theorem coarse_weights_row (e : Nat) (x : Elem) (hx : (g.data.view domain).elems[e]? = some x) (f0 f1 f2 : Nat)
    (hf : x.sub 1 = [f0, f1, f2]) :
    let W := fun f : Nat => if ((baryScan (g.data.view domain))[f]?.bind (·.lowest)) = some x.index then vol f else -vol f
    coarseWeights (g.data.view domain) mode vol e = [W f0, W f1, W f2] := by
  have hv := gridView_wf g hg hused domain
  unfold coarseWeights
  rw [hx]
  simp only [Option.map_some, Option.getD_some, rwgWeights, hf, scan_whole (g.data.view domain) hv rfl mode, List.map_cons,
    List.map_nil]

end

/-- The rows of a son. -/
theorem fine_rows {coarse : View} {fineCount : Nat} {sonMap : Nat → Nat → Nat} (pb : Bool) (vol : Nat → ℝ)
    (hn : (coarse.elems.map (·.index)).Nodup) (hs : SonsOk coarse fineCount sonMap)
    (hgood : GoodWrites (sonLoop coarse fineCount sonMap vectorFather) (baryNumbering coarse pb).2 (fun _ => 3)
      (baryVectorWrites coarse pb))
    (n : Nat) (x : Elem) (hx : coarse.elems[n]? = some x) (k : Nat) (hk : k < 6) (f0 f1 f2 : Nat) (hf : x.sub 1 = [f0, f1, f2]) :
    let fs := fun j => ([f0, f1, f2] : List Nat).getD (element2Basis k j) 0
    let N := fun f : Nat => (baryNumbering coarse pb).1.getD f (-1)
    let W := fun f : Nat => if ((baryScan coarse)[f]?.bind (·.lowest)) = some x.index then vol f else -vol f
    (writeElements (sonLoop coarse fineCount sonMap vectorFather) (baryNumbering coarse pb).2 (fun _ => 3)
      (baryVectorWrites coarse pb)).getGlobalDofs (sonMap x.index k) = [N (fs 0), N (fs 1), N (fs 2)] ∧
    ((sonLoop coarse fineCount sonMap vectorFather).elems.foldl (fun (l : List (List ℝ)) e =>
      l.set e.index (baryVectorWeights coarse vol e)) (List.replicate fineCount [])).getD (sonMap x.index k) [] =
        [W (fs 0), W (fs 1), W (fs 2)] := by
  have hm : (Elem.mk (sonMap x.index k) (k : Int) (fun _ => vectorFather x n) (fun _ _ => [])) ∈
      (sonLoop coarse fineCount sonMap vectorFather).elems := (mem_sonLoop _).mpr ⟨x, n, hx, k, hk, rfl⟩
  have hedge : ∀ j < 3, sonEdge (Elem.mk (sonMap x.index k) (k : Int) (fun _ => vectorFather x n) (fun _ _ => [])) j =
      ([f0, f1, f2] : List Nat).getD (element2Basis k j) 0 := by
    intro j hj
    unfold sonEdge vectorFather
    simp only [hf, Int.toNat_natCast]
    interval_cases k <;> interval_cases j <;> rfl
  intro fs N W
  constructor
  · have hrow := writeElements_row hgood hm
    simp only at hrow
    rw [hrow]
    unfold rowOf baryVectorWrites
    simp only [List.range_succ, List.range_zero, List.nil_append, List.cons_append, List.map_cons, List.map_nil,
      List.foldl_cons, List.foldl_nil, hedge 0 (by omega), hedge 1 (by omega), hedge 2 (by omega)]
    rfl
  · have h1 := foldl_set_get (fun e : Elem => e.index) (fun e : Elem => baryVectorWeights coarse vol e)
      (sonLoop coarse fineCount sonMap vectorFather).elems (List.replicate fineCount [])
      (Elem.mk (sonMap x.index k) (k : Int) (fun _ => vectorFather x n) (fun _ _ => [])) (sonLoop_nodup hn hs)
      (by simpa using hs.lt x (List.mem_of_getElem? hx) k hk) hm
    rw [List.getD_eq_getElem?_getD]
    simp only at h1
    rw [h1]
    unfold baryVectorWeights
    have hfather : (vectorFather x n).getD 3 0 = x.index := rfl
    simp only [List.range_succ, List.range_zero, List.nil_append, List.cons_append, List.map_cons, List.map_nil,
      hedge 0 (by omega), hedge 1 (by omega), hedge 2 (by omega), hfather, Option.getD_some]
    rfl

/-- Reordering the three terms. -/
theorem expand_reorder (N : Nat → Int) (W : Nat → ℝ) (f0 f1 f2 : Nat) (co : Nat → ℝ) (k : Nat) (hk : k < 6)
    (fine coarse : Nat → ℝ) (h : ∀ j < 3, fine j = coarse (element2Basis k j)) :
    let fs := fun j => ([f0, f1, f2] : List Nat).getD (element2Basis k j) 0
    expandW [N (fs 0), N (fs 1), N (fs 2)] [W (fs 0), W (fs 1), W (fs 2)] co fine =
      expandW [N f0, N f1, N f2] [W f0, W f1, W f2] co coarse := by
  dsimp only
  rw [expandW_three, expandW_three, h 0 (by omega), h 1 (by omega), h 2 (by omega)]
  interval_cases k <;> simp only [element2Basis, List.getD_cons_zero, List.getD_cons_succ] <;> ring

/-- **C69** (partial: whole grids without edges of three or more elements)  On the whole of a valid grid, the space of RWG,
Raviart-Thomas, Nedelec or scaled Nedelec functions (`vol` = the lengths of the edges, or 1) and its barycentric version have
the same number of global dofs, the dof maps of the barycentric version are consistent, and every coefficient vector stands
for the same function: at each point of each barycentric element, the H(div) values (in every direction `d`) and surface
divergences of the barycentric Raviart-Thomas representation, and the H(curl) values and surface curls of the barycentric
Nedelec representation, are those of the coarse one.  Missing: segments and junction edges, where the claim is false
(`C69_counterexample_junction`, `C69_counterexample_segment`). -/
theorem C69_vector_partial (g : GridData ℝ) (hg : g.Valid) (hused : AllUsed g) (b : GridData ℝ) (s : Nat → Nat → Nat)
    (hb : barycentricGridSonPair g = .ok (b, s)) (domain : Nat → Int) (mode : DofMode)
    (hmode : mode.edgeOnSegment = true ∨ mode.elementOnSegment = true) (pb : Bool) (vol : Nat → ℝ)
    (hman : ∀ f, (adjacentElems (g.data.view domain) f).length ≤ 2) :
    ∃ m mb w types, assignRWG (g.data.view domain) (wholeGrid (g.data.view domain)) mode pb = .ok m ∧
      assignVectorBary (g.data.view domain) b.data.elements.length s (wholeGrid (g.data.view domain)) mode pb vol =
        .ok (mb, w, types) ∧
      mb.Consistent ∧ mb.globalDofCount = m.globalDofCount ∧
      ∀ (c : Nat → ℝ) e t k p q son, SamePoint g b s e t k p q → b.data.elements[s e k]? = some son →
        let coarse := fun F : Nat → ℝ => expandW (m.getGlobalDofs e) (coarseWeights (g.data.view domain) mode vol e) c F
        let fine := fun F : Nat → ℝ => expandW (mb.getGlobalDofs (s e k)) (w.getD (s e k) []) c F
        let T := shapesetType types (s e k)
        (∀ d : P3 ℝ, fine (fun a => (hdivValue (rtBaryShape T a p) (triData b son)).dot d) =
          coarse (fun a => (hdivValue (rtShape a q) (triData g t)).dot d)) ∧
        fine (fun a => surfaceDiv (rtBaryShape T a p) (triData b son)) =
          coarse (fun a => surfaceDiv (rtShape a q) (triData g t)) ∧
        (∀ d : P3 ℝ, fine (fun a => (hcurlValue (ncBaryShape T a p) (triData b son)).dot d) =
          coarse (fun a => (hcurlValue (ncShape a q) (triData g t)).dot d)) ∧
        fine (fun a => hcurlSurfaceCurl (ncBaryShape T a p) (triData b son)) =
          coarse (fun a => hcurlSurfaceCurl (ncShape a q) (triData g t)) := by
  classical
  have hv := gridView_wf g hg hused domain
  have ht := view_triangular g hg hused domain hman
  have hn := view_index_nodup g.data domain
  have hs := sons_ok g hg b s hb domain
  have hnum := numbering_whole (g.data.view domain) hv rfl mode pb hman
  have hgood : GoodWrites (sonLoop (g.data.view domain) b.data.elements.length s vectorFather)
      (baryNumbering (g.data.view domain) pb).2 (fun _ => 3) (baryVectorWrites (g.data.view domain) pb) := by
    refine sonLoop_good hn hs ?_ ?_
    · intro x _
      unfold baryVectorWrites
      rw [List.map_map]
      exact List.Perm.of_eq (by rfl)
    · intro x hx w hw
      unfold baryVectorWrites at hw
      obtain ⟨j, hj, rfl⟩ := List.mem_map.mp hw
      rw [← hnum]
      by_cases hf : sonEdge x j < (g.data.view domain).count 1
      · rw [rwgNumbering_get _ hv _ mode pb _ hf, rwgNumbering_count _ hv]
        by_cases hp : RWGEdge (g.data.view domain) (wholeGrid (g.data.view domain)) mode pb (sonEdge x j)
        · rw [if_pos hp]
          right
          exact ⟨by dsimp only; omega, by dsimp only; exact_mod_cast countBelow_lt _ hf hp⟩
        · rw [if_neg hp]; left; rfl
      · left
        have h1 : rwgNumbering (g.data.view domain) (wholeGrid (g.data.view domain)) mode pb =
          numberBlocks (rwgCnt mode pb) (fun _ => -1) (rwgScan (g.data.view domain) (wholeGrid (g.data.view domain)) mode) 0 := rfl
        rw [h1, List.getD_eq_getElem?_getD, numberBlocks_get, List.getElem?_eq_none
          (by rw [rwgScan_length]; omega)]
        rfl
  have hok : assignVectorBary (g.data.view domain) b.data.elements.length s (wholeGrid (g.data.view domain)) mode pb vol =
      .ok (writeElements (sonLoop (g.data.view domain) b.data.elements.length s vectorFather)
        (baryNumbering (g.data.view domain) pb).2 (fun _ => 3) (baryVectorWrites (g.data.view domain) pb),
        (sonLoop (g.data.view domain) b.data.elements.length s vectorFather).elems.foldl (fun (l : List (List ℝ)) e =>
          l.set e.index (baryVectorWeights (g.data.view domain) vol e)) (List.replicate b.data.elements.length []),
        sonTypes (sonLoop (g.data.view domain) b.data.elements.length s vectorFather)) := by
    unfold assignVectorBary
    rw [if_neg (by rintro ⟨h1, h2⟩; rw [h1, h2] at hmode; simp at hmode), if_neg (by simp [DataContainer.view])]
  refine ⟨_, _, _, _, assignRWG_ok _ ht _ mode pb, hok, writeElements_consistent hgood, ?_, ?_⟩
  · rw [writeElements_count, writeElements_count, hnum]
  intro c e t k p q son hpq hson
  have hq := hpq.coord hg hb
  obtain ⟨x, hx, hidx, -, hsub⟩ := view_elem g.data domain e t hpq.element
  obtain ⟨f0, f1, f2, -, -, -, hedges, -⟩ := element_edges g hg e t hpq.element
  rw [hedges] at hsub
  simp only [Option.getD_some] at hsub
  obtain ⟨m', hm', -, hrow⟩ := coarse_row g hg hused domain mode pb hman e x hx f0 f1 f2 hsub
  rw [assignRWG_ok _ ht _ mode pb] at hm'
  cases hm'
  have hw := coarse_weights_row g hg hused domain mode vol hman e x hx f0 f1 f2 hsub
  obtain ⟨hfr, hfw⟩ := fine_rows pb vol hn hs hgood e x hx k hpq.son_number f0 f1 f2 hsub
  have hty := sonTypes_get (fd := vectorFather) hn hs (List.mem_of_getElem? hx) hpq.son_number
  rw [hidx] at hrow hfr hfw hty
  simp only at hfr hfw hw
  rw [hidx] at hw
  have hdeg := hpq.nondegenerate
  have hdegs := son_nondegenerate g hg b s hb e t hpq.element hdeg k hpq.son_number son hson
  -- values of the single shape functions
  have key : ∀ j < 3, hdivValue (rtBaryShape (if k % 2 = 0 then .TYPE1 else .TYPE2) j p) (triData b son) =
      hdivValue (rtShape (element2Basis k j) q) (triData g t) := by
    intro j hj
    rw [hq]
    exact son_hdiv g hg b s hb e t hpq.element hdeg k hpq.son_number son hson _ _ (rtBary_son k hpq.son_number j hj p)
  have hie := son_ie g hg b s hb e t hpq.element hdeg k hpq.son_number son hson
  have hi := (ie_pos _ _ _ hdeg).ne'
  have hnor := son_normal g hg b s hb e t hpq.element hdeg k hpq.son_number son hson
  have hdivs : ∀ i : Nat, (rtShape i q).d00 + (rtShape i q).d11 = 2 := by
    intro i; unfold rtShape; split <;> [skip; split] <;> norm_num
  have keydiv : ∀ j < 3, surfaceDiv (rtBaryShape (if k % 2 = 0 then .TYPE1 else .TYPE2) j p) (triData b son) =
      surfaceDiv (rtShape (element2Basis k j) q) (triData g t) := by
    intro j hj
    unfold surfaceDiv
    rw [rtBary_div _ j hj, hdivs, hie]
    have hi' : (triData g t).integrationElement ≠ 0 := hi
    field_simp
    norm_num
  have rot : ∀ (A B C : P3 ℝ) (h : areaVector A B C ≠ ⟨0, 0, 0⟩) (y : BasisAt), hcurlValue (rotate y) (fullData A B C) =
      (fullData A B C).normal.cross (hdivValue y (fullData A B C)) := by
    intro A B C h y
    rw [← (C71_rotation A B C h y).1]
    rfl
  have curl : ∀ (A B C : P3 ℝ) (h : areaVector A B C ≠ ⟨0, 0, 0⟩) (y : BasisAt),
      hcurlSurfaceCurl (rotate y) (fullData A B C) = surfaceDiv y (fullData A B C) := by
    intro A B C h y
    rw [hcurlSurfaceCurl_eq A B C h]
    unfold surfaceDiv rotate
    simp only [sub_neg_eq_add]
  simp only [hrow, hw, hfr, hfw, hty]
  have reo := expand_reorder (fun f => (baryNumbering (g.data.view domain) pb).1.getD f (-1))
    (fun f => if ((baryScan (g.data.view domain))[f]?.bind (·.lowest)) = some e then vol f else -vol f)
    f0 f1 f2 c k hpq.son_number
  dsimp only at reo
  refine ⟨fun d => ?_, ?_, fun d => ?_, ?_⟩
  · exact reo _ _ (fun j hj => congrArg (fun v : P3 ℝ => v.dot d) (key j hj))
  · exact reo _ (fun a => surfaceDiv (rtShape a q) (triData g t)) (fun j hj => keydiv j hj)
  · refine reo _ (fun a => (hcurlValue (ncShape a q) (triData g t)).dot d) (fun j hj => ?_)
    unfold ncBaryShape ncShape triData
    rw [rot _ _ _ hdeg, rot _ _ _ hdegs]
    have h1 := key j hj
    unfold triData at h1 hnor
    rw [h1, hnor]
  · refine reo _ (fun a => hcurlSurfaceCurl (ncShape a q) (triData g t)) (fun j hj => ?_)
    unfold ncBaryShape ncShape triData
    rw [curl _ _ _ hdeg, curl _ _ _ hdegs]
    exact keydiv j hj

/-- **C69 is false at junctions**: on three triangles that share an edge, the coarse space has a dof on that edge, the
barycentric one has none. -/
theorem C69_counterexample_junction : (book 3).WF ∧ Triangular (book 3) ∧
    (∃ m, assignRWG (book 3) (wholeGrid (book 3)) ⟨true, false⟩ false = .ok m ∧ m.globalDofCount = 1) ∧
    ∃ mb, assignVectorBary (book 3) 18 (fun e k => 6 * e + k) (wholeGrid (book 3)) ⟨true, false⟩ false (fun _ => (1 : ℤ)) = .ok mb ∧
      mb.1.globalDofCount = 0 := by
  refine ⟨book_WF 3 (by decide), by unfold Triangular; decide,
    ⟨⟨[[0, -1, -1], [0, -1, -1], [0, -1, -1]], [[⟨0, 0⟩, ⟨1, 0⟩, ⟨2, 0⟩]]⟩, by decide, by decide⟩, ⟨_, rfl, by decide⟩⟩

/-- **C69 is false for segments**: the barycentric spaces ignore the segment.  On two triangles with a segment that contains
no edge, the coarse space has no dofs, the barycentric one has one. -/
theorem C69_counterexample_segment : (book 2).WF ∧ Triangular (book 2) ∧
    (∃ m, assignRWG (book 2) ⟨fun c => (book 2).count c, fun c => if c = 1 then {0, 1, 2, 3, 4} else ∅⟩ ⟨true, false⟩ false =
      .ok m ∧ m.globalDofCount = 0) ∧
    ∃ mb, assignVectorBary (book 2) 12 (fun e k => 6 * e + k)
      ⟨fun c => (book 2).count c, fun c => if c = 1 then {0, 1, 2, 3, 4} else ∅⟩ ⟨true, false⟩ false (fun _ => (1 : ℤ)) = .ok mb ∧
      mb.1.globalDofCount = 1 := by
  refine ⟨book_WF 2 (by decide), by unfold Triangular; decide, ⟨⟨[[-1, -1, -1], [-1, -1, -1]], []⟩, by decide, by decide⟩,
    ⟨_, rfl, by decide⟩⟩

/-- Non-vacuity of C69: two triangles sharing an edge, with the point (1/4, 1/4) of son 1 of element 0. -/
example : ∃ d, DataContainer.init 4 [⟨0, 1, 2⟩, ⟨1, 3, 2⟩] = some d ∧
    ∃ g : GridData ℝ, g = ⟨[⟨0, 0, 0⟩, ⟨1, 0, 0⟩, ⟨0, 1, 0⟩, ⟨1, 1, 1⟩], d, [3, 4]⟩ ∧ g.Valid ∧ AllUsed g ∧
    (∀ f, (adjacentElems (g.data.view fun _ => 0) f).length ≤ 2) ∧
    ∃ b s, barycentricGridSonPair g = .ok (b, s) ∧
      SamePoint g b s 0 ⟨0, 1, 2⟩ 1 (1 / 4, 1 / 4) (5 / 24, 1 / 12) ∧ ∃ son, b.data.elements[s 0 1]? = some son := by
  refine ⟨_, rfl, _, rfl, ?_⟩
  have hv : GridData.Valid (K := ℝ) ⟨[⟨0, 0, 0⟩, ⟨1, 0, 0⟩, ⟨0, 1, 0⟩, ⟨1, 1, 1⟩],
      ((DataContainer.init 4 [⟨0, 1, 2⟩, ⟨1, 3, 2⟩]).get rfl), [3, 4]⟩ := by
    refine ⟨⟨0, rfl⟩, rfl, rfl, ?_, ?_⟩ <;>
    · intro t ht
      have ht : t ∈ [(⟨0, 1, 2⟩ : Tri), ⟨1, 3, 2⟩] := ht
      simp only [List.mem_cons, List.not_mem_nil, or_false] at ht
      rcases ht with rfl | rfl <;> simp [Tri.verts, Tri.Proper] <;> decide
  refine ⟨hv, ?_, ?_, ?_⟩
  · intro v hv
    have hv : v < 4 := hv
    interval_cases v
    · exact ⟨⟨0, 1, 2⟩, by decide, by decide⟩
    · exact ⟨⟨0, 1, 2⟩, by decide, by decide⟩
    · exact ⟨⟨0, 1, 2⟩, by decide, by decide⟩
    · exact ⟨⟨1, 3, 2⟩, by decide, by decide⟩
  · intro f
    exact le_trans (List.length_filter_le _ _) (le_of_eq rfl)
  · obtain ⟨b, s, hb, -⟩ := C34_structure _ hv
    obtain ⟨son, hson, -⟩ := C34_area (by norm_num) (by norm_num) _ hv b s hb 0 ⟨0, 1, 2⟩ rfl 1 (by decide)
    refine ⟨b, s, hb, ⟨by decide, rfl, ?_, ?_⟩, son, hson⟩
    · intro h
      have := congrArg P3.z h
      simp [areaVector, nodeAt] at this
    · refine ⟨son, hson, ?_⟩
      rw [son_refMap _ hv b s hb 0 ⟨0, 1, 2⟩ rfl 1 (by decide) son hson]
      simp [sonCoord]
      norm_num

end Verif.Space
