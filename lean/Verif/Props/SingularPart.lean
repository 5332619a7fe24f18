import Verif.Model.SingularPart
import Verif.Props.Assembly
import Verif.Props.PyGridView
/-
C114: the singular part of an integral operator.
-/
namespace Verif.Assembly
open Verif.Space Verif.HMat Verif.Grid Verif.PyGrid Finset

/-! ### Specification -/

/-- Two triangles of a mesh have a vertex in common. -/
def ShareVertex (ts : List Tri) (e f : Nat) : Prop :=
  ∃ t u v, ts[e]? = some t ∧ ts[f]? = some u ∧ v ∈ t.verts ∧ v ∈ u.verts

/-- The supports of test function `i` and trial function `j` touch: `i` is a global dof of an element and `j` a global dof
of an element that is the same or shares a vertex with it. -/
def SupportsTouch {K : Type} (ts : List Tri) (T U : ASpace K) (i j : Nat) : Prop :=
  ∃ e f, ShareVertex ts e f ∧ (i : Int) ∈ T.gdofs e ∧ (j : Int) ∈ U.gdofs f

/-! ### Lemmas -/

variable {K : Type} [CommRing K] [StarRing K]

theorem singular_sum_globalToLocal (sp : ASpace K) (hv : sp.Valid) (g : Nat) (hg : g < sp.globalDofCount) (F : Nat → Nat → K) :
    ((sp.maps.globalToLocal g).map fun ld => F ld.entityIndex ld.dofIndex).sum =
      ∑ e ∈ range sp.elementCount, ∑ a ∈ range (sp.gdofs e).length, if sp.maps.At ⟨e, a⟩ g then F e a else 0 := by
  have hn := hv.consistent.once g hg
  rw [← List.sum_toFinset _ hn, Finset.sum_sigma', ← Finset.sum_filter]
  refine Finset.sum_bij' (fun ld _ => (⟨ld.entityIndex, ld.dofIndex⟩ : (_ : Nat) × Nat))
    (fun x _ => (⟨x.1, x.2⟩ : LocalDof)) ?_ ?_ ?_ ?_ ?_
  · intro ld hld
    have hat := (hv.consistent.inverse g hg ld).mp (List.mem_toFinset.mp hld)
    have hat' : (sp.gdofs ld.entityIndex)[ld.dofIndex]? = some (g : Int) := hat
    simp only [Finset.mem_filter, Finset.mem_sigma, Finset.mem_range]
    refine ⟨⟨?_, (List.getElem?_eq_some_iff.mp hat').1⟩, hat⟩
    by_contra hlt
    unfold ASpace.gdofs DofMaps.getGlobalDofs at hat'
    rw [List.getD_eq_default _ _ (show sp.maps.local2global.length ≤ ld.entityIndex from not_lt.mp hlt)] at hat'
    simp at hat'
  · intro x hx
    simp only [Finset.mem_filter] at hx
    exact List.mem_toFinset.mpr ((hv.consistent.inverse g hg _).mpr hx.2)
  · intro _ _; rfl
  · intro _ _; rfl
  · intro _ _; rfl

theorem foldlM_some_sum {α : Type} (F : α → K) (l : List α) (f : K → α → Option K)
    (hf : ∀ acc, ∀ x ∈ l, f acc x = some (acc + F x)) (acc : K) :
    l.foldlM f acc = some (acc + (l.map F).sum) := by
  induction l generalizing acc with
  | nil => simp
  | cons x l ih =>
    rw [List.foldlM_cons, hf acc x (by simp)]
    show l.foldlM f (acc + F x) = _
    rw [ih (fun acc y hy => hf acc y (by simp [hy]))]
    simp [add_assoc]

theorem dictGet_form (keys : List (Nat × Nat)) (form : Nat → Nat → Nat → Nat → K) (key : Nat × Nat) (h : key ∈ keys) :
    dictGet keys (keys.map fun q => form q.1 q.2) key = some (form key.1 key.2) := by
  unfold dictGet
  have hz : keys.zip (keys.map fun q => form q.1 q.2) = keys.map fun q => (q, form q.1 q.2) := by
    clear h
    induction keys with
    | nil => rfl
    | cons q l ih => simp [ih]
  rw [hz]
  cases hf : (keys.map fun q => (q, form q.1 q.2)).reverse.find? fun q => q.1 == key with
  | none =>
    rw [List.find?_eq_none] at hf
    have := hf (key, form key.1 key.2) (by simp only [List.mem_reverse, List.mem_map]; exact ⟨key, h, rfl⟩)
    simp at this
  | some q =>
    have h1 := List.find?_some hf
    have h2 := List.mem_of_find?_eq_some hf
    simp only [List.mem_reverse, List.mem_map] at h2
    obtain ⟨k, -, rfl⟩ := h2
    have : k = key := by simpa using h1
    subst this; rfl

theorem dofWeights_get (sp : ASpace K) (hv : sp.Valid) (g : Nat) (hg : g < sp.globalDofCount) (a : LocalDof × Nat)
    (ha : a ∈ (sp.maps.globalToLocal g).zipIdx) :
    (sp.dofWeights.getD g [])[a.2]? = some (sp.weight a.1.entityIndex a.1.dofIndex) := by
  rw [List.getD_eq_getElem?_getD, hv.dofWeights g hg]
  simp only [Option.getD_some, List.getElem?_map]
  have := List.mem_zipIdx_iff_getElem?.mp ha
  rw [this]; rfl

theorem pairValue_eq (T U : ASpace K) (hT : T.Valid) (hU : U.Valid) (form : Nat → Nat → Nat → Nat → K) (i j : Nat)
    (hi : i < T.globalDofCount) (hj : j < U.globalDofCount) (elements : List (Nat × Nat))
    (hel : ∀ a ∈ T.maps.globalToLocal i, ∀ b ∈ U.maps.globalToLocal j, (a.entityIndex, b.entityIndex) ∈ elements)
    (hreal : ∀ f b, star (U.weight f b) = U.weight f b) :
    pairValue T U (dictGet elements (elements.map fun q => form q.1 q.2)) (i, j) = some (weakFormEntry T U form i j) := by
  unfold pairValue
  rw [foldlM_some_sum (F := fun a : LocalDof × Nat => ((U.maps.globalToLocal j).map fun ld =>
      form a.1.entityIndex ld.entityIndex a.1.dofIndex ld.dofIndex * star (T.weight a.1.entityIndex a.1.dofIndex) *
        U.weight ld.entityIndex ld.dofIndex).sum)]
  · rw [zero_add]
    congr 1
    have hz : ((T.maps.globalToLocal i).zipIdx.map fun a : LocalDof × Nat => ((U.maps.globalToLocal j).map fun ld =>
        form a.1.entityIndex ld.entityIndex a.1.dofIndex ld.dofIndex * star (T.weight a.1.entityIndex a.1.dofIndex) *
          U.weight ld.entityIndex ld.dofIndex).sum) =
        (T.maps.globalToLocal i).map fun a => ((U.maps.globalToLocal j).map fun ld =>
        form a.entityIndex ld.entityIndex a.dofIndex ld.dofIndex * star (T.weight a.entityIndex a.dofIndex) *
          U.weight ld.entityIndex ld.dofIndex).sum := by
      conv_rhs => rw [← List.zipIdx_map_fst 0 (T.maps.globalToLocal i)]
      rw [List.map_map]; rfl
    rw [hz, singular_sum_globalToLocal T hT i hi (fun e a => ((U.maps.globalToLocal j).map fun ld =>
        form e ld.entityIndex a ld.dofIndex * star (T.weight e a) * U.weight ld.entityIndex ld.dofIndex).sum)]
    unfold weakFormEntry
    refine Finset.sum_congr rfl fun e _ => Finset.sum_congr rfl fun a _ => ?_
    rw [singular_sum_globalToLocal U hU j hj (fun f b => form e f a b * star (T.weight e a) * U.weight f b)]
    by_cases hat : T.maps.At ⟨e, a⟩ i
    · rw [if_pos hat]
      refine Finset.sum_congr rfl fun f _ => Finset.sum_congr rfl fun b _ => ?_
      by_cases hb : U.maps.At ⟨f, b⟩ j
      · rw [if_pos hb, if_pos ⟨hat, hb⟩]; ring
      · rw [if_neg hb, if_neg (fun h => hb h.2)]
    · rw [if_neg hat]
      symm
      refine Finset.sum_eq_zero fun f _ => Finset.sum_eq_zero fun b _ => ?_
      rw [if_neg (fun h => hat h.1)]
  · intro acc a ha
    have ha' : a.1 ∈ T.maps.globalToLocal i := by
      have := List.mem_zipIdx_iff_getElem?.mp ha
      exact List.mem_of_getElem? this
    rw [foldlM_some_sum (F := fun b : LocalDof × Nat =>
      form a.1.entityIndex b.1.entityIndex a.1.dofIndex b.1.dofIndex * star (T.weight a.1.entityIndex a.1.dofIndex) *
        U.weight b.1.entityIndex b.1.dofIndex)]
    · congr 3
      conv_rhs => rw [← List.zipIdx_map_fst 0 (U.maps.globalToLocal j)]
      rw [List.map_map]; rfl
    · intro acc b hb
      have hb' : b.1 ∈ U.maps.globalToLocal j := by
        have := List.mem_zipIdx_iff_getElem?.mp hb
        exact List.mem_of_getElem? this
      show (dictGet elements _ (a.1.entityIndex, b.1.entityIndex)).bind _ = _
      rw [dictGet_form elements form _ (hel a.1 ha' b.1 hb')]
      show ((T.dofWeights.getD i [])[a.2]?).bind _ = _
      rw [dofWeights_get T hT i hi a ha]
      show ((U.dofWeights.getD j [])[b.2]?).map _ = _
      rw [dofWeights_get U hU j hj b hb]
      simp only [Option.map_some, hreal]

theorem mem_functionPairs (T U : ASpace K) (pairs : List (Nat × Nat)) (i j : Nat) :
    (i, j) ∈ functionPairs T U pairs ↔ ∃ p ∈ pairs, (i : Int) ∈ T.gdofs p.1 ∧ (j : Int) ∈ U.gdofs p.2 := by
  unfold functionPairs
  simp only [List.mem_flatMap]
  constructor
  · rintro ⟨p, hp, x, hx, h⟩
    split at h
    · obtain ⟨y, hy, h⟩ := List.mem_flatMap.mp h
      split at h
      · simp only [List.mem_singleton, Prod.mk.injEq] at h
        obtain ⟨rfl, rfl⟩ := h
        refine ⟨p, hp, ?_, ?_⟩
        · rw [Int.toNat_of_nonneg (by omega)]; exact hx
        · rw [Int.toNat_of_nonneg (by omega)]; exact hy
      · simp at h
    · simp at h
  · rintro ⟨p, hp, hx, hy⟩
    refine ⟨p, hp, i, hx, ?_⟩
    rw [if_pos (by omega), List.mem_flatMap]
    refine ⟨j, hy, ?_⟩
    rw [if_pos (by omega)]
    simp

theorem elements_eq (n : Nat) (ts : List Tri) (d : DataContainer) (h : DataContainer.init n ts = some d) :
    d.elements = ts := by
  unfold DataContainer.init at h
  simp only [Option.bind_eq_bind, Option.bind_eq_some_iff] at h
  obtain ⟨⟨st, e2e⟩, -, a, -, b, -, c, -, h⟩ := h
  cases h
  rfl

theorem mem_nonzeroPairs (n : Nat) (ts : List Tri) (d : DataContainer) (h : DataContainer.init n ts = some d)
    (hok : MeshOk n ts) (es : List Nat) (hes : es.Perm (List.range ts.length)) (e f : Nat) :
    (e, f) ∈ nonzeroPairs d es n ↔ ShareVertex ts e f := by
  have hel := elements_eq n ts d h
  unfold nonzeroPairs
  rw [hel]
  simp only [List.mem_flatMap, List.mem_range, List.mem_map, List.mem_filter, bne_iff_ne, ne_eq, Prod.mk.injEq]
  have key : ∀ t u, ts[e]? = some t → ts[f]? = some u →
      (elementToElement d es n e f ≠ 0 ↔ ∃ v, v ∈ t.verts ∧ v ∈ u.verts) := by
    intro t u ht hu
    have hV : ∀ v, vertexToElement d es v e * vertexToElement d es v f =
        if v ∈ t.verts ∧ v ∈ u.verts then 1 else 0 := by
      intro v
      rw [C107_vertex_matrix n ts d h hok es hes e t ht v, C107_vertex_matrix n ts d h hok es hes f u hu v]
      have h1 : v ∈ t.verts ↔ v = t.a ∨ v = t.b ∨ v = t.c := by simp [Tri.verts]
      have h2 : v ∈ u.verts ↔ v = u.a ∨ v = u.b ∨ v = u.c := by simp [Tri.verts]
      by_cases a1 : v = t.a ∨ v = t.b ∨ v = t.c <;> by_cases a2 : v = u.a ∨ v = u.b ∨ v = u.c <;> simp [h1, h2, a1, a2]
    unfold elementToElement
    simp only [hV]
    rw [ne_eq, List.sum_eq_zero_iff]
    constructor
    · intro hne
      by_contra hno
      push Not at hno
      apply hne
      intro x hx
      obtain ⟨v, -, rfl⟩ := List.mem_map.mp hx
      rw [if_neg (fun hc => hno v hc.1 hc.2)]
    · rintro ⟨v, hv, hv'⟩ hall
      have hvn : v < n := hok.range t (List.mem_of_getElem? ht) v hv
      have := hall (if v ∈ t.verts ∧ v ∈ u.verts then 1 else 0)
        (List.mem_map.mpr ⟨v, List.mem_range.mpr hvn, rfl⟩)
      rw [if_pos ⟨hv, hv'⟩] at this
      omega
  constructor
  · rintro ⟨e', he', f', ⟨hf', hne⟩, rfl, rfl⟩
    have ht := List.getElem?_eq_getElem he'
    have hu := List.getElem?_eq_getElem hf'
    obtain ⟨v, hv, hv'⟩ := (key _ _ ht hu).mp hne
    exact ⟨_, _, v, ht, hu, hv, hv'⟩
  · rintro ⟨t, u, v, ht, hu, hv, hv'⟩
    exact ⟨e, (List.getElem?_eq_some_iff.mp ht).1, f, ⟨(List.getElem?_eq_some_iff.mp hu).1,
      (key t u ht hu).mpr ⟨v, hv, hv'⟩⟩, rfl, rfl⟩

theorem mapM_some_map {α β : Type} (f : α → Option β) (g : α → β) (l : List α) (h : ∀ x ∈ l, f x = some (g x)) :
    l.mapM f = some (l.map g) := by
  induction l with
  | nil => rfl
  | cons x l ih =>
    rw [List.mapM_cons, h x (by simp), ih fun y hy => h y (by simp [hy])]
    rfl

theorem contrib_nodup (l : List (Nat × Nat)) (hn : l.Nodup) (F : Nat × Nat → K) (i j : Nat) :
    contrib (l.map fun p => ((p.1 : Int), (p.2 : Int), F p)) i j = if (i, j) ∈ l then F (i, j) else 0 := by
  induction l with
  | nil => rfl
  | cons p l ih =>
    rw [List.nodup_cons] at hn
    have hc : contrib ((p :: l).map fun p => ((p.1 : Int), (p.2 : Int), F p)) i j =
        contrib [((p.1 : Int), (p.2 : Int), F p)] i j + contrib (l.map fun p => ((p.1 : Int), (p.2 : Int), F p)) i j := by
      rw [← contrib_append]; rfl
    rw [hc, ih hn.2]
    by_cases hp : p = (i, j)
    · subst hp
      simp [contrib, hn.1]
    · have : ¬ (p.1 = i ∧ p.2 = j) := fun h => hp (Prod.ext h.1 h.2)
      have h2 : contrib [((p.1 : Int), (p.2 : Int), F p)] (i : Int) (j : Int) = 0 := by
        simp only [contrib, List.map_cons, List.map_nil, List.sum_cons, List.sum_nil, add_zero]
        rw [if_neg (by omega)]
      rw [h2, zero_add]
      have h3 : (i, j) ∈ p :: l ↔ (i, j) ∈ l := by
        simp only [List.mem_cons, or_iff_right_iff_imp]
        intro h; exact absurd h.symm hp
      simp only [h3]

/-! ### Theorems -/

open Classical in
/-- **C114 (the singular part).**  For two spaces on the same triangle mesh, with real weights, any local integrals and any
iteration order of the sets: the assembly succeeds; the entry for a test and a trial function whose supports touch is the
entry of the weak form (C45), all other entries are zero. -/
theorem C114_singular_part (n : Nat) (ts : List Tri) (d : DataContainer) (h : DataContainer.init n ts = some d)
    (hok : MeshOk n ts) (es : List Nat) (hes : es.Perm (List.range ts.length)) (T U : ASpace K) (hT : T.Valid)
    (hU : U.Valid) (hreal : ∀ f b, star (U.weight f b) = U.weight f b) (form : Nat → Nat → Nat → Nat → K)
    (out : Option (Mx K)) (hrun : SingularPartRun true d es n T U form out) :
    ∃ M, out = some M ∧ M.rows = T.globalDofCount ∧ M.cols = U.globalDofCount ∧
      ∀ i j : Nat, i < M.rows → j < M.cols →
        M.e i j = if SupportsTouch ts T U i j then weakFormEntry T U form i j else 0 := by
  unfold SingularPartRun at hrun
  rw [if_pos rfl] at hrun
  obtain ⟨fs, els, hfs, hels, rfl⟩ := hrun
  have hfmem : ∀ i j, (i, j) ∈ fs ↔ SupportsTouch ts T U i j := by
    intro i j
    rw [hfs.2, mem_functionPairs]
    constructor
    · rintro ⟨⟨e, f⟩, hp, h1, h2⟩
      exact ⟨e, f, (mem_nonzeroPairs n ts d h hok es hes e f).mp hp, h1, h2⟩
    · rintro ⟨e, f, hs, h1, h2⟩
      exact ⟨(e, f), (mem_nonzeroPairs n ts d h hok es hes e f).mpr hs, h1, h2⟩
  have hrange : ∀ p ∈ fs, p.1 < T.globalDofCount ∧ p.2 < U.globalDofCount := by
    rintro ⟨i, j⟩ hp
    obtain ⟨e, f, -, h1, h2⟩ := (hfmem i j).mp hp
    have a1 := T.mem_range hT h1 (by omega)
    have a2 := U.mem_range hU h2 (by omega)
    exact ⟨by omega, by omega⟩
  have hval : fs.mapM (pairValue T U (dictGet els (els.map fun q => form q.1 q.2))) =
      some (fs.map fun p => weakFormEntry T U form p.1 p.2) := by
    apply mapM_some_map
    rintro ⟨i, j⟩ hp
    apply pairValue_eq T U hT hU form i j (hrange _ hp).1 (hrange _ hp).2 els _ hreal
    intro a ha b hb
    rw [hels.2]
    unfold integrationPairs
    rw [List.mem_flatMap]
    exact ⟨(i, j), hp, List.mem_flatMap.mpr ⟨a, ha, List.mem_map.mpr ⟨b, hb, rfl⟩⟩⟩
  rw [hval]
  have hz : ((fs.zip (fs.map fun p => weakFormEntry T U form p.1 p.2)).map fun q => ((q.1.1 : Int), (q.1.2 : Int), q.2)) =
      fs.map fun p => ((p.1 : Int), (p.2 : Int), weakFormEntry T U form p.1 p.2) := by
    clear hval hels hrange hfmem hfs
    induction fs with
    | nil => rfl
    | cons p l ih => simp [ih]
  show ∃ M, addAll _ _ = some M ∧ _
  rw [hz]
  obtain ⟨M, h1, h2, h3, h4⟩ := addAll_ok (fs.map fun p => ((p.1 : Int), (p.2 : Int), weakFormEntry T U form p.1 p.2))
    (Mx.zero T.globalDofCount U.globalDofCount) (by
      intro u hu
      obtain ⟨p, hp, rfl⟩ := List.mem_map.mp hu
      have := hrange p hp
      simp only [InRange, Mx.zero]
      omega)
  refine ⟨M, h1, h2, h3, ?_⟩
  intro i j _ _
  rw [h4, contrib_nodup fs hfs.1 (fun p => weakFormEntry T U form p.1 p.2)]
  simp only [Mx.zero, zero_add, hfmem]

/-- **C114 (agreement with the dense assembly).**  The singular part agrees with the densely assembled matrix in all entries
whose functions touch. -/
theorem C114_agrees_with_dense (n : Nat) (ts : List Tri) (d : DataContainer) (h : DataContainer.init n ts = some d)
    (hok : MeshOk n ts) (es : List Nat) (hes : es.Perm (List.range ts.length)) (T U : ASpace K) (hT : T.Valid)
    (hU : U.Valid) (hreal : ∀ f b, star (U.weight f b) = U.weight f b) (form : Nat → Nat → Nat → Nat → K)
    (M N : Mx K) (hM : SingularPartRun true d es n T U form (some M)) (hN : DenseRun T U form (some N)) :
    M.rows = N.rows ∧ M.cols = N.cols ∧ ∀ i j : Nat, i < M.rows → j < M.cols →
      (SupportsTouch ts T U i j → M.e i j = N.e i j) ∧ (¬ SupportsTouch ts T U i j → M.e i j = 0) := by
  obtain ⟨M', e1, h1, h2, h3⟩ := C114_singular_part n ts d h hok es hes T U hT hU hreal form _ hM
  obtain ⟨N', e2, k1, k2, k3⟩ := C45_dense_assembly T U hT hU form _ hN
  cases e1; cases e2
  refine ⟨by omega, by omega, fun i j hi hj => ⟨fun hs => ?_, fun hs => ?_⟩⟩
  · rw [h3 i j hi hj, if_pos hs, k3 i j (by omega) (by omega)]
  · rw [h3 i j hi hj, if_neg hs]

/-- **C114 (different grids).**  For spaces on different grids the singular part is the zero matrix. -/
theorem C114_different_grids (d : DataContainer) (es : List Nat) (n : Nat) (T U : ASpace K)
    (form : Nat → Nat → Nat → Nat → K) (out : Option (Mx K)) (hrun : SingularPartRun false d es n T U form out) :
    ∃ M, out = some M ∧ M.rows = T.globalDofCount ∧ M.cols = U.globalDofCount ∧ ∀ i j, M.e i j = 0 := by
  unfold SingularPartRun at hrun
  simp only [Bool.false_eq_true, if_false] at hrun
  exact ⟨_, hrun, rfl, rfl, fun _ _ => rfl⟩

/-- Any order of the two sets gives a run. -/
theorem singularPart_intro (d : DataContainer) (es : List Nat) (n : Nat) (T U : ASpace K)
    (form : Nat → Nat → Nat → Nat → K) (fs ps : List (Nat × Nat))
    (hf : IsListOfSet fs (functionPairs T U (nonzeroPairs d es n))) (hp : IsListOfSet ps (integrationPairs T U fs)) :
    SingularPartRun true d es n T U form
      ((fs.mapM (pairValue T U (dictGet ps (ps.map fun q => form q.1 q.2)))).bind fun data =>
        addAll (Mx.zero T.globalDofCount U.globalDofCount)
          ((fs.zip data).map fun q => ((q.1.1 : Int), (q.1.2 : Int), q.2))) := by
  unfold SingularPartRun
  rw [if_pos rfl]
  exact ⟨fs, ps, hf, hp, rfl⟩

/-- The orders of iteration always exist: the assembly has at least one outcome. -/
theorem singularPart_run_exists (d : DataContainer) (es : List Nat) (n : Nat) (T U : ASpace K)
    (form : Nat → Nat → Nat → Nat → K) : ∃ out, SingularPartRun true d es n T U form out :=
  ⟨_, singularPart_intro d es n T U form _ _ ⟨List.nodup_dedup _, fun _ => List.mem_dedup⟩
    ⟨List.nodup_dedup _, fun _ => List.mem_dedup⟩⟩

/-- Constant functions on three triangles. -/
def threeConst : ASpace Int := weighted ⟨[[0], [1], [2]], [[⟨0, 0⟩], [⟨1, 0⟩], [⟨2, 0⟩]]⟩ fun _ => (1 : Int)

/-- Non-vacuity: constant functions on three triangles in a row; the first and the last do not touch. -/
example : ∃ (d : DataContainer) (out : Option (Mx Int)),
    DataContainer.init 6 [⟨0, 1, 2⟩, ⟨2, 1, 3⟩, ⟨3, 4, 5⟩] = some d ∧
    MeshOk 6 [⟨0, 1, 2⟩, ⟨2, 1, 3⟩, ⟨3, 4, 5⟩] ∧
    SingularPartRun true d [0, 1, 2] 6 threeConst threeConst (fun e f _ _ => ((10 * e + f + 1 : Nat) : Int)) out ∧
    ∃ M, out = some M ∧ M.e 0 1 = 2 ∧ M.e 1 2 = 13 ∧ M.e 0 2 = 0 := by
  obtain ⟨d, hd⟩ : ∃ d, DataContainer.init 6 [⟨0, 1, 2⟩, ⟨2, 1, 3⟩, ⟨3, 4, 5⟩] = some d := ⟨_, rfl⟩
  have hn : nonzeroPairs d [0, 1, 2] 6 = [(0, 0), (0, 1), (1, 0), (1, 1), (1, 2), (2, 1), (2, 2)] := by
    cases hd; decide
  refine ⟨d, _, hd, ⟨by decide, by simp [Tri.Proper]⟩, singularPart_intro _ _ _ _ _ _
    [(0, 0), (0, 1), (1, 0), (1, 1), (1, 2), (2, 1), (2, 2)] [(2, 2), (2, 1), (1, 2), (1, 1), (1, 0), (0, 1), (0, 0)]
    ⟨by decide, fun x => by rw [hn]; rfl⟩ ⟨by decide, ?_⟩, ⟨_, rfl, rfl, rfl, rfl⟩⟩
  intro x
  have : integrationPairs threeConst threeConst [(0, 0), (0, 1), (1, 0), (1, 1), (1, 2), (2, 1), (2, 2)] =
    [(0, 0), (0, 1), (1, 0), (1, 1), (1, 2), (2, 1), (2, 2)] := by rfl
  rw [this]
  simp only [List.mem_cons, List.not_mem_nil, or_false]
  constructor <;> (intro h; rcases h with h | h | h | h | h | h | h <;> simp [h])

end Verif.Assembly
