import Verif.Lemmas.PySpace
import Verif.Props.SpacePolyDisc
import Verif.Props.SpaceRWG
import Verif.Props.GridSegment
/-
Property C112: `function_space` creates the space its arguments describe.
-/
namespace Verif.PySpace
open Verif.Grid Verif.Space

/-! ### Parts of a grid -/

/-- The segment of the spaces. -/
def part (domains : Option (List Int)) (closed : Bool) (v : View) : GridSegment :=
  match domains with
  | none => Grid.wholeGrid v
  | some l => if closed then closedDomain v l.toFinset else openDomain v l.toFinset

theorem onDomains_update (w p : SpaceClass) (g : Nat) (d : Option (List Int)) (c : Bool) (v : View) :
    (onDomains w p g d c).segment.update v = part d c v := by
  cases d <;> rfl

theorem part_counts (d : Option (List Int)) (c : Bool) (v : View) : SegmentOf v (part d c v) := by
  intro k
  unfold part
  cases d with
  | none => rfl
  | some l => cases c <;> rfl

theorem elem_unique {v : View} (hv : v.WF) {e e' : Elem} (he : e ∈ v.elems) (he' : e' ∈ v.elems) (h : e.index = e'.index) : e = e' :=
  List.inj_on_of_nodup_map hv.index_nodup he he' h

/-- An element belongs to the segment exactly when it belongs to the part. -/
theorem part_elem {v : View} (hv : v.WF) (d : Option (List Int)) (c : Bool) {e : Elem} (he : e ∈ v.elems) :
    (part d c v).contains 0 e.index = .ok true ↔ ElementIn d e := by
  have hlt : e.index < v.count 0 := hv.has_lt e he 0 _ (by omega) (Or.inl ⟨rfl, rfl⟩)
  have hcount := part_counts d c v 0
  rw [contains_true]
  simp only [Int.toNat_zero, hcount, Nat.cast_lt, hlt, Int.natCast_nonneg, true_and]
  unfold part ElementIn
  cases d with
  | none => simp [Grid.wholeGrid]
  | some l =>
    simp only [Option.some.injEq, forall_eq']
    cases c with
    | true =>
      simp only [if_true]
      rw [closedDomain_mem]
      constructor
      · rintro ⟨-, h⟩
        by_contra hn
        exact h (Or.inl ⟨rfl, e, he, by simpa using hn, rfl⟩)
      · intro h
        refine ⟨by omega, ?_⟩
        rintro (⟨-, e', he', h1, h2⟩ | ⟨h0, -⟩)
        · have := elem_unique hv he he' (by exact_mod_cast h2)
          subst this
          exact h1 (by simpa using h)
        · omega
    | false =>
      simp only [Bool.false_eq_true, if_false]
      rw [openDomain_mem]
      constructor
      · rintro ⟨-, h⟩
        by_contra hn
        exact h (Or.inl ⟨e, he, by simpa using hn, Or.inl ⟨rfl, rfl⟩⟩)
      · intro h
        refine ⟨by omega, ?_⟩
        rintro (⟨e', he', h1, ⟨-, h2⟩ | ⟨h0, -⟩⟩ | ⟨h0, -⟩ | ⟨-, -, h0, -⟩)
        · have := elem_unique hv he he' (by exact_mod_cast h2)
          subst this
          exact h1 (by simpa using h)
        · omega
        · omega
        · omega

/-- An entity of the grid belongs to the segment exactly when it belongs to the part. -/
theorem part_entity {v : View} (hv : v.WF) (d : Option (List Int)) (c : Bool) (hfew : FewNeighbours v d) {e : Elem} (he : e ∈ v.elems)
    {k i : Nat} (hk : k ≤ v.dim) (hi : e.Has k i) : (part d c v).contains k i = .ok true ↔ EntityIn v d c k i := by
  have hlt : i < v.count k := hv.has_lt e he k i hk hi
  have hd := hv.dim_le
  unfold part EntityIn
  cases d with
  | none =>
    simp only [reduceCtorEq, false_implies, implies_true, iff_true]
    rw [contains_true]
    simp [Grid.wholeGrid, hlt]; omega
  | some l =>
    simp only [Option.some.injEq, forall_eq']
    cases c with
    | true =>
      simp only [if_true]
      rw [C30_closedDomain v hv _ _ _ (by omega)]
      simp [hk]
    | false =>
      simp only [Bool.false_eq_true, if_false, true_implies]
      rw [C30_openDomain_partial v hv _ (hfew l rfl) _ _ (by omega)]
      simp [hk]

/-- All elements that have an entity of an open part belong to the part. -/
theorem open_inside {v : View} (hv : v.WF) (d : Option (List Int)) {e : Elem} (he : e ∈ v.elems)
    {k i : Nat} (hk : k ≤ v.dim) (hi : e.Has k i) (h : (part d false v).contains k i = .ok true) : ElementIn d e := by
  intro l hl
  subst hl
  rw [contains_true] at h
  obtain ⟨-, -, -, h⟩ := h
  unfold part at h
  simp only [Bool.false_eq_true, if_false, Int.toNat_natCast] at h
  rw [openDomain_mem] at h
  by_contra hn
  refine h (Or.inl ⟨e, he, by simpa using hn, ?_⟩)
  rcases hi with ⟨h0, h1⟩ | ⟨h0, h1⟩
  · exact Or.inl ⟨h0, by rw [h1]⟩
  · exact Or.inr ⟨by omega, hk, i, h1, rfl⟩

/-! ### Nodes -/

/-- The element has the entity of each of its nodes. -/
theorem nodeEntity_has {v : View} (hv : TriMesh v) {e : Elem} (he : e ∈ v.elems) (p x y : Nat) :
    (nodeEntity p e x y).1 ≤ v.dim ∧ e.Has (nodeEntity p e x y).1 (nodeEntity p e x y).2.1 := by
  have hd := hv.dim
  have h2 : ∀ k, k < 3 → (e.sub 2).getD k 0 ∈ e.sub 2 := by
    intro k hk
    rw [List.getD_eq_getElem _ _ (by rw [hv.corners e he]; exact hk)]
    exact List.getElem_mem _
  have h1 : ∀ k, k < 3 → (e.sub 1).getD k 0 ∈ e.sub 1 := by
    intro k hk
    rw [List.getD_eq_getElem _ _ (by rw [hv.edges e he]; exact hk)]
    exact List.getElem_mem _
  unfold nodeEntity Elem.Has
  split_ifs
  · exact ⟨by omega, Or.inl ⟨rfl, rfl⟩⟩
  · exact ⟨by omega, Or.inr ⟨by simp, h2 0 (by omega)⟩⟩
  · exact ⟨by omega, Or.inr ⟨by simp, h2 1 (by omega)⟩⟩
  · exact ⟨by omega, Or.inr ⟨by simp, h2 2 (by omega)⟩⟩
  · exact ⟨by omega, Or.inr ⟨by simp, h1 0 (by omega)⟩⟩
  · exact ⟨by omega, Or.inr ⟨by simp, h1 1 (by omega)⟩⟩
  · exact ⟨by omega, Or.inr ⟨by simp, h1 2 (by omega)⟩⟩
  · exact ⟨by omega, Or.inl ⟨rfl, rfl⟩⟩

/-- A node of the polynomial space is used when its entity and, in strict mode, the element belong to the segment. -/
theorem usedNode_iff {v : View} (hv : TriMesh v) (s : GridSegment) (strict : Bool) {e : Elem} (he : e ∈ v.elems) (p x y : Nat)
    (hp : 1 ≤ p) : UsedNode v s strict p e x y ↔
      s.contains (nodeEntity p e x y).1 (nodeEntity p e x y).2.1 = .ok true ∧ (strict = true → s.contains 0 e.index = .ok true) := by
  have h2 : ∀ k, k < 3 → (e.sub 2).getD k 0 ∈ e.sub 2 := by
    intro k hk
    rw [List.getD_eq_getElem _ _ (by rw [hv.corners e he]; exact hk)]
    exact List.getElem_mem _
  have h1 : ∀ k, k < 3 → (e.sub 1).getD k 0 ∈ e.sub 1 := by
    intro k hk
    rw [List.getD_eq_getElem _ _ (by rw [hv.edges e he]; exact hk)]
    exact List.getElem_mem _
  have ent : ∀ c i, i ∈ e.sub c → ((UsedEntity v s strict c i ∧ (strict = true → s.contains 0 e.index = .ok true)) ↔
      (s.contains c i = .ok true ∧ (strict = true → s.contains 0 e.index = .ok true))) := by
    intro c i hi
    unfold UsedEntity
    constructor
    · rintro ⟨⟨a, -⟩, b⟩; exact ⟨a, b⟩
    · rintro ⟨a, b⟩; exact ⟨⟨a, fun hs => ⟨e, he, b hs, hi⟩⟩, b⟩
  unfold UsedNode nodeEntity
  rw [if_neg (by omega : ¬ p = 0)]
  split_ifs
  · exact ent 2 _ (h2 0 (by omega))
  · exact ent 2 _ (h2 1 (by omega))
  · exact ent 2 _ (h2 2 (by omega))
  · exact ent 1 _ (h1 0 (by omega))
  · exact ent 1 _ (h1 1 (by omega))
  · exact ent 1 _ (h1 2 (by omega))
  · constructor
    · intro h; exact ⟨h, fun _ => h⟩
    · exact fun h => h.1

/-- The three nodes of order 1 are the corners. -/
theorem node_one (x y : Nat) (h : x + y ≤ 1) : ∃ k, k < 3 ∧ nodeIndex 1 x y = k ∧
    (∀ e : Elem, (nodeEntity 1 e x y).1 = 2 ∧ (nodeEntity 1 e x y).2.1 = (e.sub 2).getD k 0) ∧
    ∀ (cs : List Nat) (u : Nat), nodePoint 1 cs x y u = if u = cs.getD k 0 then 1 else 0 := by
  rcases (by omega : (x = 0 ∧ y = 0) ∨ (x = 1 ∧ y = 0) ∨ (x = 0 ∧ y = 1)) with ⟨rfl, rfl⟩ | ⟨rfl, rfl⟩ | ⟨rfl, rfl⟩
  · exact ⟨0, by omega, rfl, fun e => ⟨rfl, rfl⟩, fun cs u => by simp [nodePoint]⟩
  · exact ⟨1, by omega, rfl, fun e => ⟨rfl, rfl⟩, fun cs u => by simp [nodePoint]⟩
  · exact ⟨2, by omega, rfl, fun e => ⟨rfl, rfl⟩, fun cs u => by simp [nodePoint]⟩

theorem getElem?_corner {v : View} (hv : TriMesh v) {e : Elem} (he : e ∈ v.elems) {k : Nat} (hk : k < 3) :
    (e.sub v.dim)[k]? = some ((e.sub 2).getD k 0) := by
  rw [hv.dim, List.getD_eq_getElem _ _ (by rw [hv.corners e he]; exact hk)]
  exact List.getElem?_eq_getElem _

/-- The dof maps of a continuous space of any order. -/
theorem continuous_dofs {v : View} (hv : TriMesh v) (s : GridSegment) (hs : SegmentOf v s) (strict : Bool) (p : Nat) (hp : 1 ≤ p) :
    ∃ m, (if p = 1 then assignP1 v s strict else assignPoly v s strict p) = .ok m ∧ m.Consistent ∧
      (∀ e ∈ v.elems, (m.getGlobalDofs e.index).length = (p + 1) * (p + 2) / 2 ∧ ∀ x y, x + y ≤ p →
        ((∃ g : Nat, m.At ⟨e.index, nodeIndex p x y⟩ g) ↔
          s.contains (nodeEntity p e x y).1 (nodeEntity p e x y).2.1 = .ok true ∧ (strict = true → s.contains 0 e.index = .ok true))) ∧
      (∀ e ∈ v.elems, ∀ e' ∈ v.elems, ∀ x y x' y', x + y ≤ p → x' + y' ≤ p → ∀ g g' : Nat,
        m.At ⟨e.index, nodeIndex p x y⟩ g → m.At ⟨e'.index, nodeIndex p x' y'⟩ g' →
        (g = g' → nodePoint p (e.sub 2) x y = nodePoint p (e'.sub 2) x' y') ∧
        ((x = 0 ∨ y = 0 ∨ x + y = p) → nodePoint p (e.sub 2) x y = nodePoint p (e'.sub 2) x' y' → g = g')) := by
  by_cases h1 : p = 1
  · subst h1
    obtain ⟨m, hm, hcons, -, hel⟩ := C39_dof_maps v hv.wf (Or.inr hv.dim) s hs strict
    have hval : ∀ e ∈ v.elems, ∀ x y, x + y ≤ 1 → ∀ k, k < 3 → nodeIndex 1 x y = k → ∀ g : Nat, m.At ⟨e.index, k⟩ g →
        (P1Vertex v s strict ((e.sub 2).getD k 0) ∧ (strict = true → s.contains 0 e.index = .ok true)) ∧
        (g : Int) = countBelow (P1Vertex v s strict) ((e.sub 2).getD k 0) := by
      intro e he x y hxy k hk hkk g hg
      have h := (hel e he).2 k _ (getElem?_corner hv he hk)
      by_cases hP : P1Vertex v s strict ((e.sub 2).getD k 0) ∧ (strict = true → s.contains 0 e.index = .ok true)
      · have h2 := h.1 hP
        unfold DofMaps.At at hg h2
        rw [hg] at h2
        exact ⟨hP, Option.some.inj h2⟩
      · have h2 := h.2 hP
        unfold DofMaps.At at hg h2
        rw [hg] at h2
        have := Option.some.inj h2
        omega
    refine ⟨m, by rw [if_pos rfl]; exact hm, hcons, ?_, ?_⟩
    · intro e he
      refine ⟨by rw [(hel e he).1, hv.dim, hv.corners e he], ?_⟩
      intro x y hxy
      obtain ⟨k, hk, hkk, hent, -⟩ := node_one x y hxy
      rw [hkk, (hent e).1, (hent e).2]
      constructor
      · rintro ⟨g, hg⟩
        obtain ⟨⟨a, b⟩, -⟩ := hval e he x y hxy k hk hkk g hg
        refine ⟨?_, b⟩
        have := a.1
        rw [hv.dim] at this
        exact this
      · rintro ⟨a, b⟩
        refine ⟨_, ((hel e he).2 k _ (getElem?_corner hv he hk)).1 ⟨⟨?_, fun hst => ⟨e, he, b hst, ?_⟩⟩, b⟩⟩
        · rw [hv.dim]; exact a
        · exact List.mem_of_getElem? (getElem?_corner hv he hk)
    · intro e he e' he' x y x' y' hxy hxy' g g' hg hg'
      obtain ⟨k, hk, hkk, -, hpt⟩ := node_one x y hxy
      obtain ⟨k', hk', hkk', -, hpt'⟩ := node_one x' y' hxy'
      rw [hkk] at hg
      rw [hkk'] at hg'
      obtain ⟨⟨a, -⟩, b⟩ := hval e he x y hxy k hk hkk g hg
      obtain ⟨⟨a', -⟩, b'⟩ := hval e' he' x' y' hxy' k' hk' hkk' g' hg'
      constructor
      · intro hgg
        subst hgg
        have := countBelow_inj _ a a' (by exact_mod_cast b.symm.trans b')
        funext u
        rw [hpt, hpt', this]
      · intro _ h
        have := congrFun h ((e.sub 2).getD k 0)
        rw [hpt, hpt', if_pos rfl] at this
        by_cases hq : (e.sub 2).getD k 0 = (e'.sub 2).getD k' 0
        · rw [hq] at b
          exact_mod_cast b.trans b'.symm
        · rw [if_neg hq] at this
          omega
  · obtain ⟨m, hm, hcons, -, hel⟩ := C44_dof_maps v hv s strict p hp
    refine ⟨m, by rw [if_neg h1]; exact hm, hcons, ?_, ?_⟩
    · intro e he
      refine ⟨(hel e he).1, ?_⟩
      intro x y hxy
      obtain ⟨ha, hb⟩ := (hel e he).2 x y hxy
      rw [← usedNode_iff hv s strict he p x y hp]
      constructor
      · rintro ⟨g, hg⟩
        by_contra hn
        have h2 := hb hn
        unfold DofMaps.At at hg h2
        rw [hg] at h2
        have := Option.some.inj h2
        omega
      · exact ha
    · intro e he e' he' x y x' y' hxy hxy' g g' hg hg'
      constructor
      · intro hgg
        subst hgg
        exact C44_same_dof_same_point v hv s strict p hp m hm e e' he he' x y x' y' hxy hxy' g hg hg'
      · intro hbd hpt
        exact C44_same_point_same_dof v hv s strict p hp m hm e e' he he' x y x' y' hxy hxy' hbd g g' hg hg' hpt

/-! ### Which arguments are accepted -/

/-- **C112** (accepted arguments) Every documented combination of arguments gives a space. -/
theorem C112_accepts (bary : Nat → Nat) (a : Args) (h : Supported a) : ∃ s, functionSpace bary a = .ok s := by
  rw [functionSpace_eq]
  rcases h with ⟨h, h1, h2⟩ | ⟨h, h1, h2, h3⟩ | ⟨h | h, h1, -⟩ | ⟨h, h1, -⟩
  · simp [h, h1, h2]
  · simp [h, h1, h2, h3]
  · simp [h, h1]
  · simp [h, h1]
  · have h' := h
    simp only [orderZeroKinds, List.mem_cons, List.not_mem_nil, or_false] at h
    rcases h with h | h | h | h | h | h | h | h | h | h | h <;> simp [h, h1, orderZeroKinds]

/-- **C112** (rejected arguments, in part) Every other combination raises `ValueError`, if the order is not negative for the kinds of
order 0 and `domains` is not given for the kinds on the barycentric refinement.  Missing: those two cases, see the
counterexamples. -/
theorem C112_rejects_partial (bary : Nat → Nat) (a : Args) (h : ¬ Supported a) (ho : a.kind ∈ orderZeroKinds → 0 ≤ a.order)
    (hd : a.kind ∈ barycentricKinds → a.domains = none) : functionSpace bary a = .error .valueError := by
  rw [functionSpace_eq]
  by_cases h1 : a.kind = "DP"
  · rw [if_pos h1, if_neg]
    rintro ⟨x, y, z⟩
    exact h (Or.inr (Or.inl ⟨h1, y, z, x⟩))
  rw [if_neg h1]
  by_cases h2 : a.kind = "B-DP"
  · rw [if_pos h2, if_neg]
    intro x
    exact h (Or.inr (Or.inr (Or.inl ⟨Or.inr h2, x, hd (by rw [h2]; decide)⟩)))
  rw [if_neg h2]
  by_cases h3 : a.kind = "P"
  · rw [if_pos h3, if_neg]
    rintro ⟨x, y⟩
    exact h (Or.inl ⟨h3, x, y⟩)
  rw [if_neg h3]
  by_cases h4 : a.kind = "B-P"
  · rw [if_pos h4, if_neg]
    intro x
    exact h (Or.inr (Or.inr (Or.inl ⟨Or.inl h4, x, hd (by rw [h4]; decide)⟩)))
  rw [if_neg h4]
  by_cases h5 : a.kind ∈ orderZeroKinds
  · rw [if_pos h5, if_pos]
    by_contra hn
    have := ho h5
    exact h (Or.inr (Or.inr (Or.inr ⟨h5, by omega, hd⟩)))
  · rw [if_neg h5]

/-- **C112 is false as stated (negative order).**  The kinds of order 0 are created for every negative order too. -/
theorem C112_counterexample_negative_order (bary : Nat → Nat) :
    ¬ Supported { grid := 0, kind := "RWG", order := -3 } ∧
    ∃ s, functionSpace bary { grid := 0, kind := "RWG", order := -3 } = .ok s ∧ s.data.order = 0 := by
  refine ⟨?_, _, by rw [functionSpace_eq]; rfl, rfl⟩
  simp [Supported, orderZeroKinds]

/-- **C112 is false as stated (domains of barycentric kinds).**  For kinds on the barycentric refinement `domains` is not passed on, so
a space on the whole grid is created, while the factory of the core raises `ValueError` for the same arguments. -/
theorem C112_counterexample_domains (bary : Nat → Nat) :
    ¬ Supported { grid := 0, kind := "BC", order := 0, domains := some [1] } ∧
    (∃ s, functionSpace bary { grid := 0, kind := "BC", order := 0, domains := some [1] } = .ok s ∧
      s.data.impl = adaptive .buffaChristiansen 0) ∧
    coreFunctionSpace 0 "BC" 0 (some [1]) true false true false = .error .valueError := by
  refine ⟨?_, ⟨_, by rw [functionSpace_eq]; rfl, rfl⟩, rfl⟩
  simp [Supported, orderZeroKinds, barycentricKinds]

/-! ### The dofs of the spaces -/

theorem functionSpace_P (bary : Nat → Nat) (a : Args) (hk : a.kind = "P") (ho : 1 ≤ a.order ∧ a.order ≤ 10) :
    functionSpace bary a = .ok (pSpace a) := by
  rw [functionSpace_eq]; simp [hk, ho]

theorem functionSpace_DP (bary : Nat → Nat) (a : Args) (hk : a.kind = "DP") (hm : a.refPoint = true ∨ a.onElement = true)
    (ho : 0 ≤ a.order ∧ a.order ≤ 10) : functionSpace bary a = .ok (dpSpace a) := by
  rw [functionSpace_eq]; simp [hk, ho, hm]

/-- The mode of the library that a "P" space uses. -/
def strictOf (a : Args) : Bool := if a.domains = none then false else a.strict

theorem pNative_dofs (a : Args) (v : View) : (pNative a).dofs v =
    some (if a.order.toNat = 1 then assignP1 v (part a.domains a.closed v) (strictOf a)
      else assignPoly v (part a.domains a.closed v) (strictOf a) a.order.toNat) := by
  unfold pNative strictOf Native.dofs
  by_cases h1 : a.order = 1
  · have h2 : a.order.toNat = 1 := by omega
    rw [if_pos h1, if_pos h2, onDomains_update]
    cases hd : a.domains <;> simp [onDomains, adaptive, adaptiveOn, SpaceClass.dofs]
  · have h2 : ¬ a.order.toNat = 1 := by omega
    rw [if_neg h1, if_neg h2, onDomains_update]
    cases hd : a.domains <;> simp [onDomains, adaptive, adaptiveOn, SpaceClass.dofs]

theorem strictOf_iff {v : View} (hv : v.WF) (a : Args) {e : Elem} (he : e ∈ v.elems) :
    (strictOf a = true → (part a.domains a.closed v).contains 0 e.index = .ok true) ↔ (a.strict = true → ElementIn a.domains e) := by
  rw [part_elem hv _ _ he]
  unfold strictOf
  cases hd : a.domains with
  | none => simp [ElementIn]
  | some l => simp

/-- **C112** (continuous spaces) For `kind = "P"` the space has `(p + 1)(p + 2) / 2` local dofs per triangle, one per node; a node of a
triangle carries a dof exactly when it lies in the chosen part of the grid (without its boundary if the part is open) and, with
`strictly_on_segment`, the triangle belongs to the part; nodes of different triangles share a dof exactly when they are the
same point (interior nodes aside, which belong to one triangle), so the functions are continuous. -/
theorem C112_P (bary : Nat → Nat) (a : Args) (hk : a.kind = "P") (ho : 1 ≤ a.order) (ho' : a.order ≤ 10)
    (v : View) (hv : TriMesh v) (hfew : FewNeighbours v a.domains) :
    ∃ s m, functionSpace bary a = .ok s ∧ s.data.impl.grid = a.grid ∧ s.data.impl.dofs v = some (.ok m) ∧ m.Consistent ∧
      (∀ e ∈ v.elems, (m.getGlobalDofs e.index).length = (a.order.toNat + 1) * (a.order.toNat + 2) / 2 ∧
        ∀ x y, x + y ≤ a.order.toNat →
          ((∃ g : Nat, m.At ⟨e.index, nodeIndex a.order.toNat x y⟩ g) ↔
            EntityIn v a.domains a.closed (nodeEntity a.order.toNat e x y).1 (nodeEntity a.order.toNat e x y).2.1 ∧
            (a.strict = true → ElementIn a.domains e))) ∧
      (∀ e ∈ v.elems, ∀ e' ∈ v.elems, ∀ x y x' y', x + y ≤ a.order.toNat → x' + y' ≤ a.order.toNat → ∀ g g' : Nat,
        m.At ⟨e.index, nodeIndex a.order.toNat x y⟩ g → m.At ⟨e'.index, nodeIndex a.order.toNat x' y'⟩ g' →
        (g = g' → nodePoint a.order.toNat (e.sub 2) x y = nodePoint a.order.toNat (e'.sub 2) x' y') ∧
        ((x = 0 ∨ y = 0 ∨ x + y = a.order.toNat) →
          nodePoint a.order.toNat (e.sub 2) x y = nodePoint a.order.toNat (e'.sub 2) x' y' → g = g')) := by
  obtain ⟨m, hm, hcons, hel, hsame⟩ := continuous_dofs hv (part a.domains a.closed v) (part_counts _ _ _) (strictOf a) a.order.toNat
    (by omega)
  refine ⟨pSpace a, m, functionSpace_P bary a hk ⟨ho, ho'⟩, ?_, ?_, hcons, ?_, hsame⟩
  · unfold pSpace PySpace.data pNative
    split_ifs <;> cases a.domains <;> rfl
  · show (pNative a).dofs v = _
    rw [pNative_dofs, hm]
  · intro e he
    refine ⟨(hel e he).1, ?_⟩
    intro x y hxy
    obtain ⟨h1, h2⟩ := nodeEntity_has hv he a.order.toNat x y
    rw [(hel e he).2 x y hxy, part_entity hv.wf _ _ hfew he h1 h2, strictOf_iff hv.wf a he]

/-- The mode of the library that a "DP" space uses. -/
def modeOf (a : Args) : RefMode := if a.domains = none then ⟨false, true⟩ else ⟨a.onElement, a.refPoint⟩

theorem dpNative_dofs (a : Args) (v : View) (ho : 1 ≤ a.order) : (dpNative a).dofs v =
    some ((assignPolyDisc v (part a.domains a.closed v) (modeOf a) a.order).map (·.maps)) := by
  unfold dpNative modeOf Native.dofs
  rw [if_neg (by omega : ¬ a.order = 0), onDomains_update]
  cases hd : a.domains with
  | none => rfl
  | some l => cases h1 : a.onElement <;> cases h2 : a.refPoint <;> rfl

theorem dpNative_zero (a : Args) (v : View) (ho : a.order = 0) : (dpNative a).dofs v =
    some (.ok (assignP0 v (part a.domains a.closed v))) := by
  unfold dpNative Native.dofs
  rw [if_pos ho, onDomains_update]
  cases a.domains <;> rfl

theorem dpNative_grid (a : Args) : (dpNative a).grid = a.grid := by
  unfold dpNative
  split_ifs <;> cases a.domains <;> rfl

/-- The dof maps of a "DP" space of order at least 1. -/
theorem dp_dofs (a : Args) (hm : a.refPoint = true ∨ a.onElement = true) (ho : 1 ≤ a.order) (ho' : a.order ≤ 10) (v : View)
    (hv : TriMesh v) :
    ∃ m, (dpNative a).dofs v = some (.ok m) ∧ m.Consistent ∧ (∀ g, g < m.globalDofCount → (m.globalToLocal g).length = 1) ∧
      ∀ e ∈ v.elems, (m.getGlobalDofs e.index).length = (a.order.toNat + 1) * (a.order.toNat + 2) / 2 ∧
        ∀ x y, x + y ≤ a.order.toNat →
          ((∃ g : Nat, m.At ⟨e.index, nodeIndex a.order.toNat x y⟩ g) ↔
            DiscNode (part a.domains a.closed v) (modeOf a) a.order.toNat e x y) := by
  obtain ⟨m, h1, h2, h3, -, -, h4⟩ := C109_discontinuous_dof_maps v hv (part a.domains a.closed v) (modeOf a)
    (by unfold modeOf; split_ifs <;> simp [or_comm, hm]) a.order.toNat (by omega)
  have hcast : ((a.order.toNat : Nat) : Int) = a.order := by omega
  rw [hcast] at h1
  refine ⟨m.maps, by rw [dpNative_dofs a v ho, h1]; rfl, h2, h3, ?_⟩
  intro e he
  refine ⟨(h4 e he).1, ?_⟩
  intro x y hxy
  obtain ⟨ha, hb⟩ := (h4 e he).2 x y hxy
  constructor
  · rintro ⟨g, hg⟩
    by_contra hn
    have h2 := hb hn
    unfold DofMaps.At at hg h2
    rw [hg] at h2
    have := Option.some.inj h2
    omega
  · exact ha

theorem discNode_iff {v : View} (hv : TriMesh v) (a : Args) (hfew : FewNeighbours v a.domains) {e : Elem} (he : e ∈ v.elems) (x y : Nat) :
    DiscNode (part a.domains a.closed v) (modeOf a) a.order.toNat e x y ↔
      (a.onElement = true → ElementIn a.domains e) ∧
      (a.refPoint = true →
        EntityIn v a.domains a.closed (nodeEntity a.order.toNat e x y).1 (nodeEntity a.order.toNat e x y).2.1) := by
  obtain ⟨h1, h2⟩ := nodeEntity_has hv he a.order.toNat x y
  unfold DiscNode
  rw [part_entity hv.wf _ _ hfew he h1 h2, part_elem hv.wf _ _ he]
  unfold modeOf
  cases hd : a.domains with
  | none => simp [ElementIn, EntityIn]
  | some l => simp

/-- **C112** (discontinuous spaces) For `kind = "DP"` every global dof is one local dof.  For order 0 a triangle carries a dof exactly
when it belongs to the chosen part; for higher orders a node of a triangle carries a dof exactly when the triangle belongs to
the part, if `element_on_segment`, and the node lies in the part, if `reference_point_on_segment`. -/
theorem C112_DP (bary : Nat → Nat) (a : Args) (hk : a.kind = "DP") (hm : a.refPoint = true ∨ a.onElement = true) (ho : 0 ≤ a.order)
    (ho' : a.order ≤ 10) (v : View) (hv : TriMesh v) (hfew : FewNeighbours v a.domains) :
    ∃ s m, functionSpace bary a = .ok s ∧ s.data.impl.grid = a.grid ∧ s.data.impl.dofs v = some (.ok m) ∧ m.Consistent ∧
      (∀ g, g < m.globalDofCount → (m.globalToLocal g).length = 1) ∧
      ∀ e ∈ v.elems, (m.getGlobalDofs e.index).length = (a.order.toNat + 1) * (a.order.toNat + 2) / 2 ∧
        ∀ x y, x + y ≤ a.order.toNat →
          ((∃ g : Nat, m.At ⟨e.index, nodeIndex a.order.toNat x y⟩ g) ↔
            if a.order = 0 then ElementIn a.domains e
            else (a.onElement = true → ElementIn a.domains e) ∧ (a.refPoint = true →
              EntityIn v a.domains a.closed (nodeEntity a.order.toNat e x y).1 (nodeEntity a.order.toNat e x y).2.1)) := by
  by_cases h0 : a.order = 0
  · obtain ⟨h1, -, h3⟩ := C40_dof_maps_partial v hv.wf (part a.domains a.closed v)
    refine ⟨dpSpace a, _, functionSpace_DP bary a hk hm ⟨ho, ho'⟩, dpNative_grid a, dpNative_zero a v h0, h1, ?_, ?_⟩
    · intro g hg
      obtain ⟨ld, h, -⟩ := pushElements_globalToLocal (v := v) hg
      exact congrArg List.length h
    · intro e he
      obtain ⟨ha, hb⟩ := h3 e he
      rw [part_elem hv.wf _ _ he] at ha
      rw [Ne, part_elem hv.wf _ _ he] at hb
      by_cases hin : ElementIn a.domains e
      · obtain ⟨g, hg, -⟩ := ha hin
        refine ⟨by rw [hg, h0]; rfl, ?_⟩
        intro x y hxy
        rw [if_pos h0]
        refine ⟨fun _ => hin, fun _ => ⟨g, ?_⟩⟩
        obtain ⟨rfl, rfl⟩ : x = 0 ∧ y = 0 := by omega
        unfold DofMaps.At
        simp only [hg]
        rfl
      · have hg := hb hin
        refine ⟨by rw [hg, h0]; rfl, ?_⟩
        intro x y hxy
        rw [if_pos h0]
        refine ⟨?_, fun h => absurd h hin⟩
        rintro ⟨g, h⟩
        obtain ⟨rfl, rfl⟩ : x = 0 ∧ y = 0 := by omega
        unfold DofMaps.At at h
        simp only [hg] at h
        have h5 : some (-1 : Int) = some (g : Int) := h
        have := Option.some.inj h5
        omega
  · obtain ⟨m, h1, h2, h3, h4⟩ := dp_dofs a hm (by omega) ho' v hv
    refine ⟨dpSpace a, m, functionSpace_DP bary a hk hm ⟨ho, ho'⟩, dpNative_grid a, h1, h2, h3, ?_⟩
    intro e he
    refine ⟨(h4 e he).1, ?_⟩
    intro x y hxy
    rw [if_neg h0, (h4 e he).2 x y hxy, discNode_iff hv a hfew he]

/-! ### Edge spaces -/

/-- The space of an edge kind. -/
theorem functionSpace_edge (bary : Nat → Nat) (a : Args) (hk : a.kind ∈ ["RT", "NC", "SNC", "RWG"]) (ho : a.order = 0) :
    ∃ s c, functionSpace bary a = .ok s ∧ s.data.impl = onDomains c c a.grid a.domains a.closed ∧
      c = (if a.kind = "RT" then .raviartThomas else if a.kind = "NC" then .nedelec else if a.kind = "SNC" then .scaledNedelec else .rwg) := by
  rw [functionSpace_eq]
  simp only [List.mem_cons, List.not_mem_nil, or_false] at hk
  rcases hk with h | h | h | h <;> simp only [h, ho]
  · exact ⟨rtSpace a, _, by simp [orderZeroKinds, zeroSpace, h], rfl, rfl⟩
  · exact ⟨ncSpace a, _, by simp [orderZeroKinds, zeroSpace, h], rfl, rfl⟩
  · exact ⟨sncSpace a, _, by simp [orderZeroKinds, zeroSpace, h], rfl, rfl⟩
  · exact ⟨rwgSpace a, _, by simp [orderZeroKinds, zeroSpace, h], rfl, rfl⟩

/-- **C112** (edge spaces) For the kinds "RT", "NC", "SNC" and "RWG" an edge of a triangle carries a dof exactly when it lies in the
chosen part of the grid (without its boundary if the part is open) and belongs to at least two triangles; edges share a dof
exactly when they are the same edge; the function of the dof has the weight `w` on the triangle with the lowest index and
`-w` on the others, where `w` is 1 for "RT" and "NC" and the length of the edge for "SNC" and "RWG". -/
theorem C112_edges {W : Type} [Neg W] [One W] (bary : Nat → Nat) (a : Args) (hk : a.kind ∈ ["RT", "NC", "SNC", "RWG"]) (ho : a.order = 0)
    (v : View) (hv : TriMesh v) (hfew : FewNeighbours v a.domains) (vol : Nat → W) :
    ∃ s m, functionSpace bary a = .ok s ∧ s.data.impl.grid = a.grid ∧ s.data.impl.dofs v = some (.ok m) ∧ m.Consistent ∧
      (∀ e ∈ v.elems, ∀ i f, (e.sub 1)[i]? = some f →
        ((∃ g : Nat, m.At ⟨e.index, i⟩ g) ↔ EntityIn v a.domains a.closed 1 f ∧ 2 ≤ (adjacentElems v f).length)) ∧
      (∀ e ∈ v.elems, ∀ e' ∈ v.elems, ∀ i i' f f', (e.sub 1)[i]? = some f → (e'.sub 1)[i']? = some f' → ∀ g g' : Nat,
        m.At ⟨e.index, i⟩ g → m.At ⟨e'.index, i'⟩ g' → (g = g' ↔ f = f')) ∧
      ∀ f, EntityIn v a.domains a.closed 1 f → 2 ≤ (adjacentElems v f).length →
        ∃ e0 ∈ v.elems, f ∈ e0.sub 1 ∧ (∀ e ∈ v.elems, f ∈ e.sub 1 → e0.index ≤ e.index) ∧
          ∀ e ∈ v.elems, ∀ i : Nat, (e.sub 1)[i]? = some f →
            let w := if a.kind = "SNC" ∨ a.kind = "RWG" then vol f else 1
            (s.data.impl.cls.weights v (s.data.impl.segment.update v) vol e)[i]? = some (if e.index = e0.index then w else -w) := by
  classical
  obtain ⟨s, c, hs, himpl, hc⟩ := functionSpace_edge bary a hk ho
  have ht : Triangular v := ⟨hv.dim, hv.corners⟩
  have hcls : (onDomains c c a.grid a.domains a.closed).cls = c := by cases a.domains <;> rfl
  have hseg := onDomains_update c c a.grid a.domains a.closed v
  obtain ⟨m, hm, hcons, -, hel⟩ := C43_dof_maps v hv.wf ht (part a.domains a.closed v) ⟨true, false⟩ false
  have hedge : ∀ e ∈ v.elems, ∀ f, f ∈ e.sub 1 → (RWGEdge v (part a.domains a.closed v) ⟨true, false⟩ false f ↔
      EntityIn v a.domains a.closed 1 f ∧ 2 ≤ (adjacentElems v f).length) := by
    intro e he f hf
    unfold RWGEdge
    have := part_entity hv.wf a.domains a.closed hfew he (k := 1) (i := f) (by have := hv.dim; omega) (Or.inr ⟨by omega, hf⟩)
    rw [show ((1 : Nat) : Int) = 1 from rfl] at this
    simp only [true_implies, Bool.false_eq_true, false_or, false_implies, and_true, this]
    constructor
    · rintro ⟨h1, -, h2⟩; exact ⟨h1, h2⟩
    · rintro ⟨h1, h2⟩; exact ⟨h1, by omega, h2⟩
  have hval : ∀ e ∈ v.elems, ∀ i f, (e.sub 1)[i]? = some f → ∀ g : Nat, m.At ⟨e.index, i⟩ g →
      RWGEdge v (part a.domains a.closed v) ⟨true, false⟩ false f ∧
      g = countBelow (RWGEdge v (part a.domains a.closed v) ⟨true, false⟩ false) f := by
    intro e he i f hf g hg
    obtain ⟨h1, h2⟩ := hel e he i f hf
    by_cases hr : RWGEdge v (part a.domains a.closed v) ⟨true, false⟩ false f
    · have h3 := h1 ⟨hr, by simp⟩
      unfold DofMaps.At at hg h3
      rw [hg] at h3
      exact ⟨hr, by exact_mod_cast Option.some.inj h3⟩
    · have h3 := h2 (fun h => hr h.1)
      unfold DofMaps.At at hg h3
      rw [hg] at h3
      have := Option.some.inj h3
      omega
  refine ⟨s, m, hs, by rw [himpl]; cases a.domains <;> rfl, ?_, hcons, ?_, ?_, ?_⟩
  · rw [himpl]
    unfold Native.dofs
    rw [hcls, hseg, ← hm, hc]
    split_ifs <;> rfl
  · intro e he i f hf
    rw [← hedge e he f (List.mem_of_getElem? hf)]
    constructor
    · rintro ⟨g, hg⟩; exact (hval e he i f hf g hg).1
    · intro h; exact ⟨_, (hel e he i f hf).1 ⟨h, by simp⟩⟩
  · intro e he e' he' i i' f f' hf hf' g g' hg hg'
    obtain ⟨h1, h2⟩ := hval e he i f hf g hg
    obtain ⟨h1', h2'⟩ := hval e' he' i' f' hf' g' hg'
    constructor
    · intro h
      exact countBelow_inj _ h1 h1' (by rw [← h2, ← h2', h])
    · intro h; rw [h2, h2', h]
  · intro f hf h2
    obtain ⟨e, he⟩ := List.exists_mem_of_length_pos (by omega : 0 < (adjacentElems v f).length)
    have he' := List.mem_filter.mp he
    have hr := (hedge e he'.1 f (by simpa using he'.2)).mpr ⟨hf, h2⟩
    rw [himpl, hseg, hcls]
    simp only [List.mem_cons, List.not_mem_nil, or_false] at hk
    rcases hk with h | h | h | h <;> simp [h] at hc <;> subst hc
    · simpa [h, SpaceClass.weights] using C43_weights v hv.wf ht (part a.domains a.closed v) ⟨true, false⟩ false (fun _ => (1 : W)) f hr
    · simpa [h, SpaceClass.weights] using C43_weights v hv.wf ht (part a.domains a.closed v) ⟨true, false⟩ false (fun _ => (1 : W)) f hr
    · simpa [h, SpaceClass.weights] using C43_weights v hv.wf ht (part a.domains a.closed v) ⟨true, false⟩ false vol f hr
    · simpa [h, SpaceClass.weights] using C43_weights v hv.wf ht (part a.domains a.closed v) ⟨true, false⟩ false vol f hr

/-! ### The super space -/

/-- The discontinuous space has a dof wherever the continuous space has one. -/
theorem disc_of_used {v : View} (hv : TriMesh v) (a : Args) {e : Elem} (he : e ∈ v.elems) (x y : Nat)
    (h : (part a.domains a.closed v).contains (nodeEntity a.order.toNat e x y).1 (nodeEntity a.order.toNat e x y).2.1 = .ok true)
    (hst : strictOf a = true → (part a.domains a.closed v).contains 0 e.index = .ok true) :
    DiscNode (part (pDiscArgs a).domains (pDiscArgs a).closed v) (modeOf (pDiscArgs a)) (pDiscArgs a).order.toNat e x y := by
  obtain ⟨h1, h2⟩ := nodeEntity_has hv he a.order.toNat x y
  have hst' := (strictOf_iff hv.wf a he).mp hst
  unfold pDiscArgs modeOf DiscNode
  cases hc : a.closed with
  | false =>
    rw [hc] at h
    simp only [if_true]
    have := open_inside hv.wf a.domains he h1 h2 h
    rw [part_elem hv.wf _ _ he]
    cases hd : a.domains with
    | none => rw [hd] at h; simp [h]
    | some l => rw [hd] at this; simp [this]
  | true =>
    rw [hc] at h
    simp only [Bool.true_eq_false, if_false]
    rw [part_elem hv.wf _ _ he]
    cases hd : a.domains with
    | none => rw [hd] at h; simp [h]
    | some l => rw [hd] at h hst'; simp [h]; exact hst'

/-- **C112** (super space) For `kind = "P"` every function of the space is a function of `super_space`, which is a discontinuous space
on the same grid: for all global coefficients there are coefficients of the super space with the same value at each node of
each triangle. -/
theorem C112_super_space {K : Type} [Zero K] (bary : Nat → Nat) (a : Args) (hk : a.kind = "P") (ho : 1 ≤ a.order) (ho' : a.order ≤ 10)
    (v : View) (hv : TriMesh v) :
    ∃ s u m d, functionSpace bary a = .ok s ∧ s.super = some u ∧ s.discontinuous = some u ∧ s.data.impl.dofs v = some (.ok m) ∧
      u.data.impl.dofs v = some (.ok d) ∧ u.data.impl.grid = s.data.impl.grid ∧
      ∀ c : Nat → K, ∃ c' : Nat → K, ∀ e ∈ v.elems, ∀ x y, x + y ≤ a.order.toNat →
        localCoefficient d c' ⟨e.index, nodeIndex a.order.toNat x y⟩ = localCoefficient m c ⟨e.index, nodeIndex a.order.toNat x y⟩ := by
  obtain ⟨m, hm, hcons, hel, -⟩ := continuous_dofs hv (part a.domains a.closed v) (part_counts _ _ _) (strictOf a) a.order.toNat
    (by omega)
  have hord : (pDiscArgs a).order = a.order := by unfold pDiscArgs; split_ifs <;> rfl
  obtain ⟨d, hd, hdc, hone, hdel⟩ := dp_dofs (pDiscArgs a) (by unfold pDiscArgs; split_ifs <;> simp) (by omega) (by omega) v hv
  refine ⟨pSpace a, dpSpace (pDiscArgs a), m, d, functionSpace_P bary a hk ⟨ho, ho'⟩, rfl, rfl, ?_, hd, ?_, ?_⟩
  · show (pNative a).dofs v = _
    rw [pNative_dofs, hm]
  · show (dpNative (pDiscArgs a)).grid = (pNative a).grid
    rw [dpNative_grid]
    unfold pDiscArgs pNative
    split_ifs <;> cases a.domains <;> rfl
  · intro c
    refine ⟨fun g => match d.globalToLocal g with | [] => 0 | ld :: _ => localCoefficient m c ld, ?_⟩
    intro e he x y hxy
    rw [hord] at hdel
    by_cases hnode : ∃ g : Nat, d.At ⟨e.index, nodeIndex a.order.toNat x y⟩ g
    · obtain ⟨g, hg⟩ := hnode
      have hlt : g < d.globalDofCount := by
        rcases hdc.range _ _ hg with h | h <;> omega
      have hmem := (hdc.inverse g hlt ⟨e.index, nodeIndex a.order.toNat x y⟩).mpr hg
      have hlen := hone g hlt
      conv_lhs => unfold localCoefficient
      unfold DofMaps.At at hg
      simp only [hg, Int.natCast_nonneg, if_true, Int.toNat_natCast]
      obtain ⟨ld, hl⟩ := List.length_eq_one_iff.mp hlen
      rw [hl, List.mem_singleton] at hmem
      rw [hl, hmem]
      rfl
    · have hno : ¬ ∃ g : Nat, m.At ⟨e.index, nodeIndex a.order.toNat x y⟩ g := by
        intro h
        obtain ⟨h1, h2⟩ := ((hel e he).2 x y hxy).mp h
        refine hnode (((hdel e he).2 x y hxy).mpr ?_)
        have := disc_of_used hv a he x y h1 h2
        rw [hord] at this
        exact this
      have zero : ∀ (m : DofMaps) (c : Nat → K) (ld : LocalDof), m.Consistent → (¬ ∃ g : Nat, m.At ld g) → localCoefficient m c ld = 0 := by
        intro m c ld hcons h
        unfold localCoefficient
        split
        · next g hg =>
          rcases hcons.range ld g hg with h0 | h0
          · rw [h0]; rfl
          · refine absurd ⟨g.toNat, ?_⟩ h
            unfold DofMaps.At
            rw [hg, Int.toNat_of_nonneg h0.1]
        · rfl
      rw [zero _ _ _ hdc hnode, zero _ _ _ hcons hno]

/-! ### Equality of spaces -/

theorem sorted_perm {l l' : List Int} (h : sorted l = sorted l') : l.Perm l' :=
  by
  have h1 : (sorted l).Perm l := List.mergeSort_perm l _
  have h2 : (sorted l').Perm l' := List.mergeSort_perm l' _
  exact h1.symm.trans (h ▸ h2)

theorem sorted_eq {l l' : List Int} (h : l.Perm l') : sorted l = sorted l' := by
  refine List.Perm.eq_of_pairwise (le := (· ≤ ·)) ?_ ?_ ?_ ?_
  · intro a b _ _ h1 h2; omega
  · exact (List.pairwise_mergeSort (le := fun a b => decide (a ≤ b)) (by simp; omega) (by simp; omega) l).imp (by simp)
  · exact (List.pairwise_mergeSort (le := fun a b => decide (a ≤ b)) (by simp; omega) (by simp; omega) l').imp (by simp)
  · exact (List.mergeSort_perm l _).trans (h.trans (List.mergeSort_perm l' _).symm)

/-- Subdomains that give the same key give the same space of the library. -/
theorem onDomains_same (w p : SpaceClass) (g : Nat) (c : Bool) {d d' : Option (List Int)} (h : d.map sorted = d'.map sorted) :
    (onDomains w p g d c).Same (onDomains w p g d' c) := by
  cases d with
  | none =>
    cases d' with
    | none => exact ⟨rfl, rfl, fun _ => rfl⟩
    | some l' => simp at h
  | some l =>
    cases d' with
    | none => simp at h
    | some l' =>
      simp only [Option.map_some, Option.some.injEq] at h
      have hp := sorted_perm h
      refine ⟨rfl, rfl, ?_⟩
      intro v
      simp only [onDomains_update, part]
      rw [List.toFinset_eq_of_perm _ _ hp]

theorem Native.Same.refl (n : Native) : n.Same n := ⟨rfl, rfl, fun _ => rfl⟩

theorem result_key {bary : Nat → Nat} {a : Args} {s : PySpace} (h : Result bary a s) : s.data.key = some a.key := by
  cases h <;> rfl

theorem eq_iff (s t : PySpace) : s.eq t = true ↔ s.data.key = t.data.key := by simp [PySpace.eq]

/-- **C112** (equality) Two spaces created by `function_space` are equal in the sense of `==` exactly when their arguments agree up to
the order of the subdomains. -/
theorem C112_equal_arguments (bary : Nat → Nat) (a b : Args) (s t : PySpace) (ha : functionSpace bary a = .ok s)
    (hb : functionSpace bary b = .ok t) : s.eq t = true ↔
      (∃ d, b = { a with domains := d } ∧ Option.Rel List.Perm a.domains d) := by
  have key : ∀ (a : Args) (s : PySpace), functionSpace bary a = .ok s → s.data.key = some a.key :=
    fun a s h => result_key (functionSpace_result bary a s h)
  rw [eq_iff, key a s ha, key b t hb, Option.some.injEq]
  rcases a with ⟨g, k, o, d, c, st, r, el⟩
  rcases b with ⟨g', k', o', d', c', st', r', el'⟩
  simp only [Args.key, Key.mk.injEq, Args.mk.injEq]
  have hd : d.map sorted = d'.map sorted ↔ Option.Rel List.Perm d d' := by
    cases d <;> cases d' <;> simp
    exact ⟨sorted_perm, sorted_eq⟩
  rw [hd]
  constructor
  · rintro ⟨rfl, rfl, rfl, h, rfl, rfl, rfl, rfl⟩
    exact ⟨d', ⟨rfl, rfl, rfl, rfl, rfl, rfl, rfl, rfl⟩, h⟩
  · rintro ⟨x, ⟨rfl, rfl, rfl, rfl, rfl, rfl, rfl, rfl⟩, h⟩
    exact ⟨rfl, rfl, rfl, h, rfl, rfl, rfl, rfl⟩

theorem sameAttr_key (s t : PySpace) (h : s.data.key = t.data.key) : SameAttribute (some s) (some t) := (eq_iff s t).mpr h

/-- **C112** (equal spaces) Spaces that are equal in the sense of `==` are the same space of the library on the same grid, with the
same order and functor, and their companion spaces are equal. -/
theorem C112_equal (bary : Nat → Nat) (a b : Args) (s t : PySpace) (ha : functionSpace bary a = .ok s) (hb : functionSpace bary b = .ok t)
    (h : s.eq t = true) : SameSpace s t := by
  have ra := functionSpace_result bary a s ha
  have rb := functionSpace_result bary b t hb
  rw [eq_iff, result_key ra, result_key rb, Option.some.injEq] at h
  rcases a with ⟨g, k, o, d, c, st, r, el⟩
  rcases b with ⟨g', k', o', d', c', st', r', el'⟩
  have h0 := h
  simp only [Args.key, Key.mk.injEq] at h
  obtain ⟨rfl, rfl, rfl, hd, rfl, rfl, rfl, rfl⟩ := h
  have hdp : ∀ (g : Nat) (k : String) (o : Int) (c st r el : Bool),
      (dpNative ⟨g, k, o, d, c, st, r, el⟩).Same (dpNative ⟨g, k, o, d', c, st, r, el⟩) := by
    intro g k o c st r el
    unfold dpNative
    split_ifs <;> exact onDomains_same _ _ _ _ hd
  have hp : (pNative ⟨g, k, o, d, c, st, r, el⟩).Same (pNative ⟨g, k, o, d', c, st, r, el⟩) := by
    unfold pNative
    split_ifs <;> exact onDomains_same _ _ _ _ hd
  have hk : ∀ (g : Nat) (k : String) (o : Int) (c st r el : Bool),
      (⟨g, k, o, d, c, st, r, el⟩ : Args).key = (⟨g, k, o, d', c, st, r, el⟩ : Args).key := by
    intro g k o c st r el
    simp [Args.key, hd]
  have hpd : (pDiscArgs ⟨g, k, o, d, c, st, r, el⟩).key = (pDiscArgs ⟨g, k, o, d', c, st, r, el⟩).key := by
    unfold pDiscArgs
    simp only
    split_ifs <;> exact hk _ _ _ _ _ _ _
  have hvd : (vDiscArgs ⟨g, k, o, d, c, st, r, el⟩).key = (vDiscArgs ⟨g, k, o, d', c, st, r, el⟩).key := by
    unfold vDiscArgs
    simp only
    split_ifs <;> exact hk _ _ _ _ _ _ _
  have self : ∀ s : PySpace, SameAttribute (some s) (some s) := fun s => sameAttr_key _ _ rfl
  have ko := hk g k o c st r el
  cases ra with
  | dp x =>
    cases rb with
    | dp x' => exact ⟨hdp .., rfl, rfl, rfl, rfl, rfl, sameAttr_key _ _ (congrArg some ko), sameAttr_key _ _ (congrArg some ko),
      sameAttr_key _ _ (congrArg some ko), trivial⟩
    | _ => rename_i hk'; exact absurd (x.symm.trans hk') (by decide)
  | p x =>
    cases rb with
    | p x' => exact ⟨hp, rfl, rfl, rfl, rfl, rfl, sameAttr_key _ _ (congrArg some ko), sameAttr_key _ _ (congrArg some hpd),
      sameAttr_key _ _ (congrArg some hpd), trivial⟩
    | _ => rename_i hk'; exact absurd (x.symm.trans hk') (by decide)
  | rt x =>
    cases rb with
    | rt x' => exact ⟨onDomains_same _ _ _ _ hd, rfl, rfl, rfl, rfl, rfl, sameAttr_key _ _ (congrArg some ko),
      sameAttr_key _ _ (congrArg some hvd), sameAttr_key _ _ (congrArg some ko), trivial⟩
    | _ => rename_i hk'; exact absurd (x.symm.trans hk') (by decide)
  | rwg x =>
    cases rb with
    | rwg x' => exact ⟨onDomains_same _ _ _ _ hd, rfl, rfl, rfl, rfl, rfl, sameAttr_key _ _ (congrArg some ko),
      sameAttr_key _ _ (congrArg some hvd), sameAttr_key _ _ (congrArg some ko), trivial⟩
    | _ => rename_i hk'; exact absurd (x.symm.trans hk') (by decide)
  | nc x =>
    cases rb with
    | nc x' => exact ⟨onDomains_same _ _ _ _ hd, rfl, rfl, rfl, rfl, rfl, sameAttr_key _ _ (congrArg some ko),
      sameAttr_key _ _ (congrArg some hvd), sameAttr_key _ _ (congrArg some ko), sameAttr_key _ _ (congrArg some (hk ..))⟩
    | _ => rename_i hk'; exact absurd (x.symm.trans hk') (by decide)
  | snc x =>
    cases rb with
    | snc x' => exact ⟨onDomains_same _ _ _ _ hd, rfl, rfl, rfl, rfl, rfl, sameAttr_key _ _ (congrArg some ko),
      sameAttr_key _ _ (congrArg some hvd), sameAttr_key _ _ (congrArg some ko), sameAttr_key _ _ (congrArg some (hk ..))⟩
    | _ => rename_i hk'; exact absurd (x.symm.trans hk') (by decide)
  | bdp y x =>
    cases rb with
    | bdp y' x' => exact ⟨.refl _, rfl, rfl, rfl, rfl, rfl, self _, self _, self _, trivial⟩
    | _ => rename_i hk'; exact absurd (x.symm.trans hk') (by decide)
  | bp y x =>
    cases rb with
    | bp y' x' => exact ⟨.refl _, rfl, rfl, rfl, rfl, rfl, self _, self _, self _, trivial⟩
    | _ => rename_i hk'; exact absurd (x.symm.trans hk') (by decide)
  | brt x =>
    cases rb with
    | brt x' => exact ⟨.refl _, rfl, rfl, rfl, rfl, rfl, self _, self _, self _, trivial⟩
    | _ => rename_i hk'; exact absurd (x.symm.trans hk') (by decide)
  | brwg x =>
    cases rb with
    | brwg x' => exact ⟨.refl _, rfl, rfl, rfl, rfl, rfl, self _, self _, self _, trivial⟩
    | _ => rename_i hk'; exact absurd (x.symm.trans hk') (by decide)
  | bnc x =>
    cases rb with
    | bnc x' => exact ⟨.refl _, rfl, rfl, rfl, rfl, rfl, self _, self _, self _, self _⟩
    | _ => rename_i hk'; exact absurd (x.symm.trans hk') (by decide)
  | bsnc x =>
    cases rb with
    | bsnc x' => exact ⟨.refl _, rfl, rfl, rfl, rfl, rfl, self _, self _, self _, self _⟩
    | _ => rename_i hk'; exact absurd (x.symm.trans hk') (by decide)
  | dual x =>
    cases rb with
    | dual x' => exact ⟨.refl _, rfl, rfl, rfl, rfl, rfl, trivial, self _, self _, trivial⟩
    | _ => rename_i hk'; exact absurd (x.symm.trans hk') (by decide)
  | bc x =>
    cases rb with
    | bc x' => exact ⟨.refl _, rfl, rfl, rfl, rfl, rfl, trivial, self _, self _, trivial⟩
    | _ => rename_i hk'; exact absurd (x.symm.trans hk') (by decide)
  | rbc x =>
    cases rb with
    | rbc x' => exact ⟨.refl _, rfl, rfl, rfl, rfl, rfl, trivial, self _, self _, self _⟩
    | _ => rename_i hk'; exact absurd (x.symm.trans hk') (by decide)

/-! ### The attributes -/

/-- **C112** (attributes) Kind by kind: `is_barycentric`, `grid`, `has_local_support` and the functor; the companion on the grid itself is
`function_space` of that kind (the space itself if it lives on the grid); the discontinuous companion is a "DP" space on the
grid where the functions live; `super_space` is a space of the kind given by `superKind` on that grid and its own super space. -/
theorem C112_attributes (bary : Nat → Nat) (a : Args) (s : PySpace) (h : functionSpace bary a = .ok s) :
    (s.data.isBarycentric = true ↔ a.kind ∈ barycentricKinds) ∧
    s.data.grid = (if a.kind ∈ barycentricKinds then bary a.grid else a.grid) ∧
    (s.hasLocalSupport = true ↔ a.kind = "DP") ∧
    s.data.functor = functorOf a.kind ∧
    (s.data.hasNonBarycentric = true ↔ (coarseKind a.kind).isSome) ∧
    (a.kind ∉ barycentricKinds → s.nonBarycentric = some s) ∧
    (a.kind ∈ barycentricKinds → ∀ k, coarseKind a.kind = some k → ∃ n,
      functionSpace bary { grid := a.grid, kind := k, order := s.data.order } = .ok n ∧ s.nonBarycentric = some n) ∧
    (∃ d, s.discontinuous = some d ∧ d.hasLocalSupport = true ∧ d.data.key.map (·.kind) = some "DP" ∧ d.data.grid = s.data.grid ∧
      d.data.impl.grid = s.data.grid) ∧
    (∃ u, s.super = some u ∧ u.super = some u ∧ u.data.key.map (·.kind) = some (superKind a.kind) ∧ u.data.grid = s.data.grid ∧
      u.data.isBarycentric = false ∧ u.data.functor = s.data.functor) := by
  have res := functionSpace_result bary a s h
  clear h
  have hdg : ∀ a, (dpNative a).grid = a.grid := dpNative_grid
  have hpk : ∀ a : Args, (pDiscArgs a).kind = "DP" ∧ (pDiscArgs a).grid = a.grid := by
    intro a; unfold pDiscArgs; split_ifs <;> exact ⟨rfl, rfl⟩
  have hvk : ∀ a : Args, (vDiscArgs a).kind = "DP" ∧ (vDiscArgs a).grid = a.grid := by
    intro a; unfold vDiscArgs; split_ifs <;> exact ⟨rfl, rfl⟩
  have dpLocal : ∀ a, (dpSpace a).hasLocalSupport = true := by
    intro a
    simp [PySpace.hasLocalSupport, dpSpace, PySpace.discontinuous, Link.get, PySpace.eq]
  cases res with
  | dp x =>
    refine ⟨by simp [x, barycentricKinds, dpSpace, PySpace.data], by simp [x, barycentricKinds, dpSpace, PySpace.data], ?_,
      by simp [x, functorOf, dpSpace, PySpace.data], by simp [x, coarseKind, dpSpace, PySpace.data], fun _ => rfl, ?_, ⟨_, rfl, ?_, ?_, rfl, hdg _⟩,
      ⟨_, rfl, rfl, ?_, rfl, rfl, rfl⟩⟩
    · simp [x, PySpace.hasLocalSupport, dpSpace, PySpace.discontinuous, Link.get, PySpace.eq]
    · simp [x, barycentricKinds]
    · simp [PySpace.hasLocalSupport, dpSpace, PySpace.discontinuous, Link.get, PySpace.eq]
    · simp [dpSpace, PySpace.data, Args.key, x]
    · simp [dpSpace, PySpace.data, Args.key, x, superKind]
  | p x =>
    refine ⟨by simp [x, barycentricKinds, pSpace, PySpace.data], by simp [x, barycentricKinds, pSpace, PySpace.data], ?_,
      by simp [x, functorOf, hdivKind, pSpace, PySpace.data], by simp [x, coarseKind, pSpace, PySpace.data], fun _ => rfl,
      by simp [x, barycentricKinds], ⟨_, rfl, dpLocal _, congrArg some (hpk a).1, (hpk a).2, (hdg _).trans (hpk a).2⟩, ⟨_, rfl, rfl, by simp [x, superKind, dpSpace, PySpace.data, Args.key, hpk], (hpk a).2, rfl, rfl⟩⟩
    simp [x, PySpace.hasLocalSupport, pSpace, dpSpace, PySpace.discontinuous, Link.get, PySpace.eq, PySpace.data, Args.key, hpk, hvk]
  | rt x =>
    refine ⟨by simp [x, barycentricKinds, rtSpace, PySpace.data], by simp [x, barycentricKinds, rtSpace, PySpace.data], ?_,
      by simp [x, functorOf, hdivKind, rtSpace, PySpace.data], by simp [x, coarseKind, rtSpace, PySpace.data], fun _ => rfl,
      by simp [x, barycentricKinds], ⟨_, rfl, dpLocal _, congrArg some (hvk a).1, (hvk a).2, (hdg _).trans (hvk a).2⟩, ⟨_, rfl, rfl, by simp [x, superKind, rtSpace, PySpace.data, Args.key], rfl, rfl, rfl⟩⟩
    simp [x, PySpace.hasLocalSupport, rtSpace, dpSpace, PySpace.discontinuous, Link.get, PySpace.eq, PySpace.data, Args.key, hpk, hvk]
  | nc x =>
    refine ⟨by simp [x, barycentricKinds, ncSpace, PySpace.data], by simp [x, barycentricKinds, ncSpace, PySpace.data], ?_,
      by simp [x, functorOf, hdivKind, ncSpace, PySpace.data], by simp [x, coarseKind, ncSpace, PySpace.data], fun _ => rfl,
      by simp [x, barycentricKinds], ⟨_, rfl, dpLocal _, congrArg some (hvk a).1, (hvk a).2, (hdg _).trans (hvk a).2⟩, ⟨_, rfl, rfl, by simp [x, superKind, ncSpace, PySpace.data, Args.key], rfl, rfl, rfl⟩⟩
    simp [x, PySpace.hasLocalSupport, ncSpace, dpSpace, PySpace.discontinuous, Link.get, PySpace.eq, PySpace.data, Args.key, hpk, hvk]
  | snc x =>
    refine ⟨by simp [x, barycentricKinds, sncSpace, PySpace.data], by simp [x, barycentricKinds, sncSpace, PySpace.data], ?_,
      by simp [x, functorOf, hdivKind, sncSpace, PySpace.data], by simp [x, coarseKind, sncSpace, PySpace.data], fun _ => rfl,
      by simp [x, barycentricKinds], ⟨_, rfl, dpLocal _, congrArg some (hvk a).1, (hvk a).2, (hdg _).trans (hvk a).2⟩, ⟨_, rfl, rfl, by simp [x, superKind, sncSpace, PySpace.data, Args.key], rfl, rfl, rfl⟩⟩
    simp [x, PySpace.hasLocalSupport, sncSpace, dpSpace, PySpace.discontinuous, Link.get, PySpace.eq, PySpace.data, Args.key, hpk, hvk]
  | rwg x =>
    refine ⟨by simp [x, barycentricKinds, rwgSpace, PySpace.data], by simp [x, barycentricKinds, rwgSpace, PySpace.data], ?_,
      by simp [x, functorOf, hdivKind, rwgSpace, PySpace.data], by simp [x, coarseKind, rwgSpace, PySpace.data], fun _ => rfl,
      by simp [x, barycentricKinds], ⟨_, rfl, dpLocal _, congrArg some (hvk a).1, (hvk a).2, (hdg _).trans (hvk a).2⟩, ⟨_, rfl, rfl, by simp [x, superKind, rwgSpace, PySpace.data, Args.key], rfl, rfl, rfl⟩⟩
    simp [x, PySpace.hasLocalSupport, rwgSpace, dpSpace, PySpace.discontinuous, Link.get, PySpace.eq, PySpace.data, Args.key, hpk, hvk]
  | bdp y x =>
    refine ⟨by simp [x, barycentricKinds, bdpSpace, PySpace.data], by simp [x, barycentricKinds, bdpSpace, PySpace.data], ?_,
      by simp [x, functorOf, hdivKind, bdpSpace, PySpace.data], by simp [x, coarseKind, bdpSpace, PySpace.data], by simp [x, barycentricKinds],
      ?_, ⟨_, rfl, dpLocal _, rfl, rfl, hdg _⟩,
      ⟨_, rfl, rfl, by simp [x, superKind, dp, dpSpace, rtSpace, ncSpace, sncSpace, rwgSpace, PySpace.data, Args.key], rfl, rfl, rfl⟩⟩
    · simp [x, PySpace.hasLocalSupport, bdpSpace, dp, dpSpace, PySpace.discontinuous, Link.get, PySpace.eq, PySpace.data, Args.key]
    · intro _ k hk
      rw [x] at hk
      have hk' : "DP" = k := by simpa [coarseKind] using hk
      subst hk'
      refine ⟨_, ?_, rfl⟩
      rw [functionSpace_eq]; simp [bdpSpace, PySpace.data, y, dp]
  | bp y x =>
    refine ⟨by simp [x, barycentricKinds, bpSpace, PySpace.data], by simp [x, barycentricKinds, bpSpace, PySpace.data], ?_,
      by simp [x, functorOf, hdivKind, bpSpace, PySpace.data], by simp [x, coarseKind, bpSpace, PySpace.data], by simp [x, barycentricKinds],
      ?_, ⟨_, rfl, dpLocal _, rfl, rfl, hdg _⟩,
      ⟨_, rfl, rfl, by simp [x, superKind, dp, dpSpace, rtSpace, ncSpace, sncSpace, rwgSpace, PySpace.data, Args.key], rfl, rfl, rfl⟩⟩
    · simp [x, PySpace.hasLocalSupport, bpSpace, dp, dpSpace, PySpace.discontinuous, Link.get, PySpace.eq, PySpace.data, Args.key]
    · intro _ k hk
      rw [x] at hk
      have hk' : "P" = k := by simpa [coarseKind] using hk
      subst hk'
      refine ⟨_, ?_, rfl⟩
      rw [functionSpace_eq]; simp [bpSpace, PySpace.data, y]
  | brt x =>
    refine ⟨by simp [x, barycentricKinds, brtSpace, PySpace.data], by simp [x, barycentricKinds, brtSpace, PySpace.data], ?_,
      by simp [x, functorOf, hdivKind, brtSpace, PySpace.data], by simp [x, coarseKind, brtSpace, PySpace.data], by simp [x, barycentricKinds],
      ?_, ⟨_, rfl, dpLocal _, rfl, rfl, hdg _⟩,
      ⟨_, rfl, rfl, by simp [x, superKind, dp, dpSpace, rtSpace, ncSpace, sncSpace, rwgSpace, PySpace.data, Args.key], rfl, rfl, rfl⟩⟩
    · simp [x, PySpace.hasLocalSupport, brtSpace, dp, dpSpace, PySpace.discontinuous, Link.get, PySpace.eq, PySpace.data, Args.key]
    · intro _ k hk
      rw [x] at hk
      have hk' : "RT" = k := by simpa [coarseKind] using hk
      subst hk'
      refine ⟨_, ?_, rfl⟩
      rw [functionSpace_eq]; simp [orderZeroKinds, zeroSpace, brtSpace, PySpace.data]
  | bnc x =>
    refine ⟨by simp [x, barycentricKinds, bncSpace, PySpace.data], by simp [x, barycentricKinds, bncSpace, PySpace.data], ?_,
      by simp [x, functorOf, hdivKind, bncSpace, PySpace.data], by simp [x, coarseKind, bncSpace, PySpace.data], by simp [x, barycentricKinds],
      ?_, ⟨_, rfl, dpLocal _, rfl, rfl, hdg _⟩,
      ⟨_, rfl, rfl, by simp [x, superKind, dp, dpSpace, rtSpace, ncSpace, sncSpace, rwgSpace, PySpace.data, Args.key], rfl, rfl, rfl⟩⟩
    · simp [x, PySpace.hasLocalSupport, bncSpace, dp, dpSpace, PySpace.discontinuous, Link.get, PySpace.eq, PySpace.data, Args.key]
    · intro _ k hk
      rw [x] at hk
      have hk' : "NC" = k := by simpa [coarseKind] using hk
      subst hk'
      refine ⟨_, ?_, rfl⟩
      rw [functionSpace_eq]; simp [orderZeroKinds, zeroSpace, bncSpace, PySpace.data]
  | bsnc x =>
    refine ⟨by simp [x, barycentricKinds, bsncSpace, PySpace.data], by simp [x, barycentricKinds, bsncSpace, PySpace.data], ?_,
      by simp [x, functorOf, hdivKind, bsncSpace, PySpace.data], by simp [x, coarseKind, bsncSpace, PySpace.data], by simp [x, barycentricKinds],
      ?_, ⟨_, rfl, dpLocal _, rfl, rfl, hdg _⟩,
      ⟨_, rfl, rfl, by simp [x, superKind, dp, dpSpace, rtSpace, ncSpace, sncSpace, rwgSpace, PySpace.data, Args.key], rfl, rfl, rfl⟩⟩
    · simp [x, PySpace.hasLocalSupport, bsncSpace, dp, dpSpace, PySpace.discontinuous, Link.get, PySpace.eq, PySpace.data, Args.key]
    · intro _ k hk
      rw [x] at hk
      have hk' : "SNC" = k := by simpa [coarseKind] using hk
      subst hk'
      refine ⟨_, ?_, rfl⟩
      rw [functionSpace_eq]; simp [orderZeroKinds, zeroSpace, bsncSpace, PySpace.data]
  | brwg x =>
    refine ⟨by simp [x, barycentricKinds, brwgSpace, PySpace.data], by simp [x, barycentricKinds, brwgSpace, PySpace.data], ?_,
      by simp [x, functorOf, hdivKind, brwgSpace, PySpace.data], by simp [x, coarseKind, brwgSpace, PySpace.data], by simp [x, barycentricKinds],
      ?_, ⟨_, rfl, dpLocal _, rfl, rfl, hdg _⟩,
      ⟨_, rfl, rfl, by simp [x, superKind, dp, dpSpace, rtSpace, ncSpace, sncSpace, rwgSpace, PySpace.data, Args.key], rfl, rfl, rfl⟩⟩
    · simp [x, PySpace.hasLocalSupport, brwgSpace, dp, dpSpace, PySpace.discontinuous, Link.get, PySpace.eq, PySpace.data, Args.key]
    · intro _ k hk
      rw [x] at hk
      have hk' : "RWG" = k := by simpa [coarseKind] using hk
      subst hk'
      refine ⟨_, ?_, rfl⟩
      rw [functionSpace_eq]; simp [orderZeroKinds, zeroSpace, brwgSpace, PySpace.data]
  | dual x =>
    refine ⟨by simp [x, barycentricKinds, dualSpace, PySpace.data], by simp [x, barycentricKinds, dualSpace, PySpace.data], ?_,
      by simp [x, functorOf, hdivKind, dualSpace, PySpace.data], by simp [x, coarseKind, dualSpace, PySpace.data], by simp [x, barycentricKinds],
      by simp [x, coarseKind], ⟨_, rfl, dpLocal _, rfl, rfl, hdg _⟩,
      ⟨_, rfl, rfl, by simp [x, superKind, dp, dpSpace, rtSpace, ncSpace, sncSpace, rwgSpace, PySpace.data, Args.key], rfl, rfl, rfl⟩⟩
    · simp [x, PySpace.hasLocalSupport, dualSpace, dp, dpSpace, PySpace.discontinuous, Link.get, PySpace.eq, PySpace.data, Args.key]
  | bc x =>
    refine ⟨by simp [x, barycentricKinds, bcSpace, PySpace.data], by simp [x, barycentricKinds, bcSpace, PySpace.data], ?_,
      by simp [x, functorOf, hdivKind, bcSpace, PySpace.data], by simp [x, coarseKind, bcSpace, PySpace.data], by simp [x, barycentricKinds],
      by simp [x, coarseKind], ⟨_, rfl, dpLocal _, rfl, rfl, hdg _⟩,
      ⟨_, rfl, rfl, by simp [x, superKind, dp, dpSpace, rtSpace, ncSpace, sncSpace, rwgSpace, PySpace.data, Args.key], rfl, rfl, rfl⟩⟩
    · simp [x, PySpace.hasLocalSupport, bcSpace, dp, dpSpace, PySpace.discontinuous, Link.get, PySpace.eq, PySpace.data, Args.key]
  | rbc x =>
    refine ⟨by simp [x, barycentricKinds, rbcSpace, PySpace.data], by simp [x, barycentricKinds, rbcSpace, PySpace.data], ?_,
      by simp [x, functorOf, hdivKind, rbcSpace, PySpace.data], by simp [x, coarseKind, rbcSpace, PySpace.data], by simp [x, barycentricKinds],
      by simp [x, coarseKind], ⟨_, rfl, dpLocal _, rfl, rfl, hdg _⟩,
      ⟨_, rfl, rfl, by simp [x, superKind, dp, dpSpace, rtSpace, ncSpace, sncSpace, rwgSpace, PySpace.data, Args.key], rfl, rfl, rfl⟩⟩
    · simp [x, PySpace.hasLocalSupport, rbcSpace, dp, dpSpace, PySpace.discontinuous, Link.get, PySpace.eq, PySpace.data, Args.key]

/-- **C112** (companions on the grid) For the kinds on the grid itself the discontinuous companion is `function_space` of kind "DP" for the
same subdomains: on a closed part it has the nodes of the part, for strict "P" spaces of its triangles only; on an open part it
has all nodes of the triangles of the part. -/
theorem C112_companion (bary : Nat → Nat) (a : Args) (s : PySpace) (h : functionSpace bary a = .ok s) (hk : a.kind ∉ barycentricKinds)
    (hdp : a.kind ≠ "DP") :
    s.data.order = (if a.kind = "P" then a.order else 0) ∧
    ∃ d, s.discontinuous = some d ∧
      functionSpace bary ⟨a.grid, "DP", discOrder a.kind a.order, a.domains, a.closed, false, a.closed,
        if a.closed then (decide (a.kind = "P") && a.strict) else true⟩ = .ok d := by
  have res := functionSpace_result bary a s h
  cases res with
  | dp x => exact absurd x hdp
  | p x =>
    refine ⟨by simp [x, pSpace, PySpace.data], dpSpace (pDiscArgs a), rfl, ?_⟩
    rw [functionSpace_eq] at h
    simp only [x] at h
    have ho : 1 ≤ a.order ∧ a.order ≤ 10 := by
      by_contra hn
      simp [hn] at h
    rw [functionSpace_DP bary _ rfl (by cases a.closed <;> simp) ⟨by simp [discOrder, functorOf, x]; omega,
      by simp [discOrder, functorOf, x]; omega⟩]
    unfold pDiscArgs
    cases hc : a.closed <;> simp [x, discOrder, functorOf]
  | rt x | nc x | snc x | rwg x =>
    refine ⟨by simp [x, rtSpace, ncSpace, sncSpace, rwgSpace, PySpace.data], dpSpace (vDiscArgs a), rfl, ?_⟩
    rw [functionSpace_DP bary _ rfl (by cases a.closed <;> simp) (by simp [discOrder, functorOf, hdivKind, x])]
    unfold vDiscArgs
    cases hc : a.closed <;> simp [x, discOrder, functorOf, hdivKind]
  | _ => rename_i x; simp [x, barycentricKinds] at hk

/-- **C112** (kinds on the barycentric refinement) The space of the library is the one of the kind on the whole grid; the discontinuous
companion and the super space are `function_space` of their kinds on the barycentric grid. -/
theorem C112_barycentric (bary : Nat → Nat) (a : Args) (s : PySpace) (h : functionSpace bary a = .ok s) (c : SpaceClass)
    (hc : barycentricClass a.kind = some c) :
    s.data.impl = adaptive c a.grid ∧ s.data.order = (if a.kind = "B-P" ∨ a.kind = "B-DP" then a.order else 0) ∧
    (∃ d, s.discontinuous = some d ∧
      functionSpace bary { grid := bary a.grid, kind := "DP", order := discOrder a.kind s.data.order } = .ok d) ∧
    (∃ u, s.super = some u ∧
      functionSpace bary { grid := bary a.grid, kind := superKind a.kind, order := s.data.order } = .ok u) := by
  have res := functionSpace_result bary a s h
  clear h
  cases res with
  | bdp y x | bp y x =>
    simp [x, barycentricClass] at hc
    subst hc
    refine ⟨rfl, by simp [x, bdpSpace, bpSpace, PySpace.data], ⟨_, rfl, ?_⟩, ⟨_, rfl, ?_⟩⟩ <;> rw [functionSpace_eq] <;>
      simp [x, y, discOrder, functorOf, superKind, dp, bdpSpace, bpSpace, PySpace.data]
  | dual x =>
    simp [x, barycentricClass] at hc
    subst hc
    refine ⟨rfl, by simp [x, dualSpace, PySpace.data], ⟨_, rfl, ?_⟩, ⟨_, rfl, ?_⟩⟩ <;> rw [functionSpace_eq] <;>
      simp [x, discOrder, functorOf, superKind, dp, dualSpace, PySpace.data]
  | brt x | bnc x | bsnc x | brwg x | bc x | rbc x =>
    simp [x, barycentricClass] at hc
    subst hc
    refine ⟨rfl, by simp [x, brtSpace, bncSpace, bsncSpace, brwgSpace, bcSpace, rbcSpace, PySpace.data], ⟨_, rfl, ?_⟩, ⟨_, rfl, ?_⟩⟩ <;>
      rw [functionSpace_eq] <;>
      simp [x, discOrder, functorOf, hdivKind, superKind, dp, orderZeroKinds, zeroSpace, brtSpace, bncSpace, bsncSpace, brwgSpace, bcSpace,
        rbcSpace, PySpace.data]
  | _ => rename_i x; simp [x, barycentricClass] at hc

/-- **C112** (rotation, in part) For the curl-conforming kinds the space of the rotated functions is `function_space` of the
div-conforming kind with the same subdomains; for "NC" and "SNC" both have the same dofs and weights.  Missing: kind "RBC", see
the counterexample. -/
theorem C112_hdiv_partial {W : Type} [Neg W] [One W] (bary : Nat → Nat) (a : Args) (s : PySpace) (h : functionSpace bary a = .ok s)
    (hr : a.kind ≠ "RBC") :
    (hdivKind a.kind = none → s.hdiv = none) ∧
    ∀ k, hdivKind a.kind = some k → ∃ n,
      functionSpace bary ⟨a.grid, k, 0, if a.kind ∈ barycentricKinds then none else a.domains,
        if a.kind ∈ barycentricKinds then true else a.closed, false, true, false⟩ = .ok n ∧
      s.hdiv = some n ∧ n.data.impl.grid = s.data.impl.grid ∧ n.data.grid = s.data.grid ∧
      ∀ v, n.data.impl.dofs v = s.data.impl.dofs v ∧ ∀ (vol : Nat → W) (e : Elem),
        n.data.impl.cls.weights v (n.data.impl.segment.update v) vol e = s.data.impl.cls.weights v (s.data.impl.segment.update v) vol e := by
  have res := functionSpace_result bary a s h
  clear h
  cases res with
  | nc x =>
    refine ⟨by simp [x, hdivKind], ?_⟩
    intro k hk
    rw [x] at hk
    have hk' : "RT" = k := by simpa [hdivKind] using hk
    subst hk'
    refine ⟨rtSpace _, ?_, rfl, ?_, rfl, ?_⟩
    · rw [functionSpace_eq]
      simp [x, orderZeroKinds, zeroSpace, barycentricKinds]
    · simp only [rtSpace, ncSpace, PySpace.data]; cases a.domains <;> rfl
    · intro v
      simp only [rtSpace, ncSpace, PySpace.data, Native.dofs]
      cases a.domains <;> exact ⟨rfl, fun _ _ => rfl⟩
  | snc x =>
    refine ⟨by simp [x, hdivKind], ?_⟩
    intro k hk
    rw [x] at hk
    have hk' : "RWG" = k := by simpa [hdivKind] using hk
    subst hk'
    refine ⟨rwgSpace _, ?_, rfl, ?_, rfl, ?_⟩
    · rw [functionSpace_eq]
      simp [x, orderZeroKinds, zeroSpace, barycentricKinds]
    · simp only [rwgSpace, sncSpace, PySpace.data]; cases a.domains <;> rfl
    · intro v
      simp only [rwgSpace, sncSpace, PySpace.data, Native.dofs]
      cases a.domains <;> exact ⟨rfl, fun _ _ => rfl⟩
  | bnc x =>
    refine ⟨by simp [x, hdivKind], ?_⟩
    intro k hk
    rw [x] at hk
    have hk' : "B-RT" = k := by simpa [hdivKind] using hk
    subst hk'
    refine ⟨brtSpace bary _, ?_, rfl, rfl, rfl, fun v => ⟨rfl, fun _ _ => rfl⟩⟩
    rw [functionSpace_eq]
    simp [x, orderZeroKinds, zeroSpace, barycentricKinds]
  | bsnc x =>
    refine ⟨by simp [x, hdivKind], ?_⟩
    intro k hk
    rw [x] at hk
    have hk' : "B-RWG" = k := by simpa [hdivKind] using hk
    subst hk'
    refine ⟨brwgSpace bary _, ?_, rfl, rfl, rfl, fun v => ⟨rfl, fun _ _ => rfl⟩⟩
    rw [functionSpace_eq]
    simp [x, orderZeroKinds, zeroSpace, barycentricKinds]
  | rbc x => exact absurd x hr
  | _ => rename_i x; exact ⟨fun _ => rfl, by simp [x, hdivKind]⟩

/-- **C112 is false as stated (rotation of "RBC").**  The div-conforming companion of an "RBC" space is made without a key: it is not
equal to `function_space(grid, "BC", 0)` on the same grid, and equal to the companion of the "RBC" space of any other grid. -/
theorem C112_counterexample_rbc (bary : Nat → Nat) (hb : bary 0 ≠ bary 1) :
    ∃ s t b n m, functionSpace bary { grid := 0, kind := "RBC", order := 0 } = .ok s ∧
      functionSpace bary { grid := 1, kind := "RBC", order := 0 } = .ok t ∧
      functionSpace bary { grid := 0, kind := "BC", order := 0 } = .ok b ∧
      s.hdiv = some n ∧ t.hdiv = some m ∧ n.data.impl = b.data.impl ∧ n.eq b = false ∧ n.eq m = true ∧
      n.data.impl ≠ m.data.impl ∧ n.data.grid ≠ m.data.grid :=
  ⟨rbcSpace bary _, rbcSpace bary _, bcSpace bary 0 (some (Args.key { grid := 0, kind := "BC", order := 0 })), bcSpace bary 0 none, bcSpace bary 1 none, by rw [functionSpace_eq]; rfl,
    by rw [functionSpace_eq]; rfl, by rw [functionSpace_eq]; rfl, rfl, rfl, rfl, rfl, rfl, by simp [bcSpace, PySpace.data, adaptive], hb⟩

/-! ### Concrete cases -/

/-- Non-vacuity: on two triangles with different domain indices, the open part of domain 1 has no node inside, so the space "P" of
order 1 is empty there, the closed part has the three nodes of the first triangle, and order 3 on the open part keeps only the
interior node; no edge has many neighbours. -/
example : ∃ d, DataContainer.init 4 twoTris 0 = some d ∧ TriMesh (d.view fun i => if i = 0 then 1 else 2) ∧
    FewNeighbours (d.view fun i => if i = 0 then 1 else 2) (some [1]) ∧
    ∃ m m', (pSpace { grid := 0, kind := "P", order := 1, domains := some [1] }).data.impl.dofs (d.view fun i => if i = 0 then 1 else 2) =
        some (.ok m) ∧ m.globalDofCount = 3 ∧ m.getGlobalDofs 0 = [0, 1, 2] ∧ m.getGlobalDofs 1 = [2, 1, -1] ∧
      (pSpace { grid := 0, kind := "P", order := 3, domains := some [1], closed := false }).data.impl.dofs
        (d.view fun i => if i = 0 then 1 else 2) = some (.ok m') ∧ m'.globalDofCount = 1 := by
  have hok : MeshOk 4 twoTris := ⟨by decide, by simp [twoTris, Tri.Proper]⟩
  have h : ∃ d, DataContainer.init 4 twoTris 0 = some d := ⟨_, rfl⟩
  obtain ⟨d, hd⟩ := h
  have ht := triMesh_view 4 twoTris 0 d hd hok (by simp [twoTris]) (by decide) (fun i => if i = 0 then 1 else 2)
  refine ⟨d, hd, ht, ?_, ?_⟩
  · intro l hl f
    have : (d.view fun i => if i = 0 then 1 else 2).elems.length = 2 := by cases hd; rfl
    exact (List.length_filter_le _ _).trans (by omega)
  · cases hd
    exact ⟨_, _, rfl, by decide +kernel, by decide +kernel, by decide +kernel, rfl, by decide +kernel⟩

/-- Non-vacuity: equal spaces with subdomains in another order. -/
example (bary : Nat → Nat) : ∃ s t, functionSpace bary { grid := 0, kind := "SNC", order := 0, domains := some [2, 1, 2] } = .ok s ∧
    functionSpace bary { grid := 0, kind := "SNC", order := 0, domains := some [1, 2, 2] } = .ok t ∧ s.eq t = true := by
  obtain ⟨s, hs⟩ := C112_accepts bary { grid := 0, kind := "SNC", order := 0, domains := some [2, 1, 2] }
    (by simp [Supported, orderZeroKinds, barycentricKinds])
  obtain ⟨t, ht⟩ := C112_accepts bary { grid := 0, kind := "SNC", order := 0, domains := some [1, 2, 2] }
    (by simp [Supported, orderZeroKinds, barycentricKinds])
  refine ⟨s, t, hs, ht, (C112_equal_arguments bary _ _ s t hs ht).mpr ⟨_, rfl, ?_⟩⟩
  exact Option.Rel.some (List.Perm.swap 1 2 [2])

/-- Non-vacuity: arguments that are rejected. -/
example (bary : Nat → Nat) : functionSpace bary { grid := 0, kind := "P", order := 0 } = .error .valueError ∧
    functionSpace bary { grid := 0, kind := "DP", order := 1, refPoint := false } = .error .valueError ∧
    functionSpace bary { grid := 0, kind := "RWG", order := 1 } = .error .valueError ∧
    functionSpace bary { grid := 0, kind := "XYZ", order := 0 } = .error .valueError := by
  refine ⟨?_, ?_, ?_, ?_⟩ <;>
    exact C112_rejects_partial bary _ (by simp [Supported, orderZeroKinds]) (by simp) (by simp)

end Verif.PySpace
