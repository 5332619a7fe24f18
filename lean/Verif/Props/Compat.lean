import Verif.Lemmas.Compat
import Verif.Props.SpacePolyDisc
/-
C119: compatibility of spaces, in every history of grids, refinements and spaces.
-/
namespace Verif.Compat

/-- Adaptive spaces — all spaces of the Python API (C112) — are, after any history, the spaces that would be made of their arguments
now, and two of them are compatible exactly if they have the same number of dofs. -/
theorem C119_python_spaces (count : Raw → Nat) (ops : List Op) (a b : Args) (c d : Raw)
    (h : Space.adaptive a c ∈ (run ops).spaces) (h' : Space.adaptive b d ∈ (run ops).spaces) :
    (run ops).world.create a = (c, (run ops).world) ∧
    (Space.adaptive a c).compatible count (run ops).world (.adaptive b d) =
      .ok (decide (count ((run ops).world.create a).1 = count ((run ops).world.create b).1)) := by
  obtain ⟨_, hs⟩ := run_ok ops
  have h1 : (run ops).world.create a = (c, (run ops).world) := (hs _ h).2
  have h2 : (run ops).world.create b = (d, (run ops).world) := (hs _ h').2
  refine ⟨h1, ?_⟩
  rw [h1, h2]
  rfl

theorem isBaryOf_iff {w : World} {g h : Nat} : w.isBaryOf g h = true ↔ w.bary h = some g := by
  unfold World.isBaryOf
  cases w.bary h with
  | none => simp
  | some b =>
    simp only [beq_iff_eq, Option.some.injEq]
    exact eq_comm

/-- The identifiers of the concrete classes are different, but for the order of the polynomials and the discontinuous linear functions
on the barycentric refinement. -/
theorem compatible_iff {w : World} (hw : WorldOk w) {r o : Raw} (hr : r.Proper) (ho : o.Proper) :
    ∃ b, r.compatible w (.raw o) = .ok b ∧ (b = true ↔ Agree w r o) := by
  obtain ⟨⟨rc, rg, rs⟩, rl, rG⟩ := r
  obtain ⟨⟨oc, og, os⟩, ol, oG⟩ := o
  unfold Raw.Proper at hr ho
  have hne : ∀ g : Nat, w.bary g ≠ some g := fun g h => absurd (hw g g h).1 (Nat.lt_irrefl g)
  by_cases hG : rG = oG
  · subst hG
    cases rc <;> cases oc <;>
      first
      | exact absurd rfl hr
      | exact absurd rfl ho
      | simp [Raw.compatible, Space.current, Cls.ident, Agree, sameGridSameIdent, hne]
  · have hG' : ¬ oG = rG := fun h => hG h.symm
    cases rc <;> cases oc <;>
      first
      | exact absurd rfl hr
      | exact absurd rfl ho
      | simp [Raw.compatible, Space.current, Cls.ident, Agree, sameGridSameIdent, hG, hG', isBaryOf_iff]

/-- Spaces of concrete classes that are compatible consist of the same kind of functions on the same grid; exactly when they are. -/
theorem C119_library_partial (count : Raw → Nat) (ops : List Op) (r o : Raw) (h : Space.raw r ∈ (run ops).spaces)
    (h' : Space.raw o ∈ (run ops).spaces) (hr : r.Proper) (ho : o.Proper) :
    ∃ b, (Space.raw r).compatible count (run ops).world (.raw o) = .ok b ∧ (b = true ↔ Agree (run ops).world r o) ∧
      (b = true → SameFunctions r o) := by
  obtain ⟨hw, hs⟩ := run_ok ops
  have h1 : RawOk _ r := hs _ h
  have h2 : RawOk _ o := hs _ h'
  obtain ⟨b, hb, hiff⟩ := compatible_iff hw hr ho
  refine ⟨b, hb, hiff, fun hbt => ?_⟩
  have key : ∀ {x y : Raw}, RawOk (run ops).world x → RawOk (run ops).world y → x.args.cls.onBarycentric = false →
      y.args.cls.onBarycentric = true → (run ops).world.bary x.grid = some y.grid → x.args.grid = y.args.grid := by
    intro x y hx hy hxb hyb hxy
    have e1 := (hw _ _ hxy).2.2
    rw [hy.bary hyb, hx.own hxb] at e1
    exact (Option.some.inj e1).symm
  rcases hiff.1 hbt with ⟨hc, hg⟩ | ⟨hc, hc', hg⟩ | ⟨hc, hc', hg⟩ | ⟨hc, hc', hg⟩ | ⟨hc, hc', hg⟩
  · refine ⟨by rw [hc], ?_⟩
    cases hbar : r.args.cls.onBarycentric with
    | false => rw [← h1.own hbar, ← h2.own (by rw [← hc]; exact hbar), hg]
    | true =>
      have e1 := h1.bary hbar
      rw [hg, h2.bary (by rw [← hc]; exact hbar)] at e1
      exact (Option.some.inj e1).symm
  · exact ⟨by rw [hc, hc']; rfl, key h1 h2 (by rw [hc]; rfl) (by rw [hc']; rfl) hg⟩
  · exact ⟨by rw [hc, hc']; rfl, (key h2 h1 (by rw [hc']; rfl) (by rw [hc]; rfl) hg).symm⟩
  · exact ⟨by rw [hc, hc']; rfl, key h1 h2 (by rw [hc]; rfl) (by rw [hc']; rfl) hg⟩
  · exact ⟨by rw [hc, hc']; rfl, (key h2 h1 (by rw [hc']; rfl) (by rw [hc]; rfl) hg).symm⟩

/-- Compatible spaces on the whole grid, made after the last refinement, have the same number of dofs. -/
theorem C119_same_dofs_partial (count : Raw → Nat) (hcount : CountLaw count) (ops : List Op) (r o : Raw)
    (h : Space.raw r ∈ (run ops).spaces) (h' : Space.raw o ∈ (run ops).spaces) (hr : r.Proper) (ho : o.Proper)
    (hu : UpToDate (run ops).world r) (hu' : UpToDate (run ops).world o) (hs : r.args.segment = none) (hs' : o.args.segment = none)
    (hc : (Space.raw r).compatible count (run ops).world (.raw o) = .ok true) : count r = count o := by
  obtain ⟨b, hb, hiff, hf⟩ := C119_library_partial count ops r o h h' hr ho
  rw [hc] at hb
  injection hb with hb
  obtain ⟨_, hg⟩ := hf hb.symm
  have hl : r.level = o.level := by unfold UpToDate at hu hu'; rw [hu, hu', hg]
  obtain ⟨⟨rc, rg, rs⟩, rl, rG⟩ := r
  obtain ⟨⟨oc, og, os⟩, ol, oG⟩ := o
  simp only at hs hs' hg hl
  subst hs hs' hg hl
  rcases hiff.1 hb.symm with ⟨e, _⟩ | ⟨e, e', _⟩ | ⟨e, e', _⟩ | ⟨e, e', _⟩ | ⟨e, e', _⟩
  · simp only at e; subst e; exact hcount.grid _ _ _ _
  · simp only at e e'; subst e e'; rw [← hcount.constants]; exact hcount.grid _ _ _ _
  · simp only at e e'; subst e e'; rw [hcount.constants]; exact hcount.grid _ _ _ _
  · simp only at e e'; subst e e'; rw [← hcount.linears]; exact hcount.grid _ _ _ _
  · simp only at e e'; subst e e'; rw [hcount.linears]; exact hcount.grid _ _ _ _

/-- Every space is compatible with itself. -/
theorem C119_reflexive (count : Raw → Nat) (w : World) (s : Space) : s.compatible count w s = .ok true := by
  cases s with
  | adaptive a c => simp [Space.compatible, Space.current]
  | raw r =>
    obtain ⟨⟨rc, rg, rs⟩, rl, rG⟩ := r
    cases rc <;> simp [Space.compatible, Raw.compatible, Space.current, Cls.ident, sameGridSameIdent]

/-- Compatibility does not depend on which of the two spaces is asked: for adaptive spaces and for spaces of concrete classes. -/
theorem C119_symmetric_partial (count : Raw → Nat) (ops : List Op) :
    (∀ a b c d, (Space.adaptive a c).compatible count (run ops).world (.adaptive b d) =
      (Space.adaptive b d).compatible count (run ops).world (.adaptive a c)) ∧
    ∀ r o, Space.raw r ∈ (run ops).spaces → Space.raw o ∈ (run ops).spaces →
      (Space.raw r).compatible count (run ops).world (.raw o) = (Space.raw o).compatible count (run ops).world (.raw r) := by
  refine ⟨fun a b c d => ?_, fun r o _ _ => ?_⟩
  · simp only [Space.compatible, Space.current]
    congr 1
    rw [Bool.eq_iff_iff, beq_iff_eq, beq_iff_eq]
    exact eq_comm
  · obtain ⟨⟨rc, rg, rs⟩, rl, rG⟩ := r
    obtain ⟨⟨oc, og, os⟩, ol, oG⟩ := o
    by_cases hG : rG = oG
    · subst hG
      cases rc <;> cases oc <;>
        simp [Space.compatible, Raw.compatible, Space.current, Cls.ident, sameGridSameIdent, eq_comm]
    · have hG' : ¬ oG = rG := fun h => hG h.symm
      cases rc <;> cases oc <;>
        simp [Space.compatible, Raw.compatible, Space.current, Cls.ident, sameGridSameIdent, hG, hG']

/-- Spaces compatible with a third one are compatible with each other: for adaptive spaces and for spaces of concrete classes other
than the discontinuous linear functions on the barycentric refinement. -/
theorem C119_transitive_partial (count : Raw → Nat) (ops : List Op) :
    (∀ a b c d e f, (Space.adaptive a b).compatible count (run ops).world (.adaptive c d) = .ok true →
      (Space.adaptive c d).compatible count (run ops).world (.adaptive e f) = .ok true →
      (Space.adaptive a b).compatible count (run ops).world (.adaptive e f) = .ok true) ∧
    ∀ r o p, Space.raw r ∈ (run ops).spaces → Space.raw o ∈ (run ops).spaces → Space.raw p ∈ (run ops).spaces →
      r.Proper → o.Proper → p.Proper →
      (Space.raw r).compatible count (run ops).world (.raw o) = .ok true →
      (Space.raw o).compatible count (run ops).world (.raw p) = .ok true →
      (Space.raw r).compatible count (run ops).world (.raw p) = .ok true := by
  refine ⟨fun a b c d e f h h' => ?_, fun r o p hr ho hp pr po pp h h' => ?_⟩
  · simp only [Space.compatible, Space.current, Except.ok.injEq, beq_iff_eq] at h h' ⊢
    exact h.trans h'
  · obtain ⟨hw, _⟩ := run_ok ops
    have inj : ∀ {g g' b : Nat}, (run ops).world.bary g = some b → (run ops).world.bary g' = some b → g = g' := by
      intro g g' b e e'
      have := (hw _ _ e).2.2
      rw [(hw _ _ e').2.2] at this
      exact (Option.some.inj this).symm
    have agree : ∀ {x y : Raw}, x.Proper → y.Proper → ((Space.raw x).compatible count (run ops).world (.raw y) = .ok true ↔
        Agree (run ops).world x y) := by
      intro x y hx hy
      obtain ⟨b, hb, hiff⟩ := compatible_iff hw hx hy
      show x.compatible _ _ = _ ↔ _
      rw [hb, ← hiff]
      simp
    rw [agree pr po] at h
    rw [agree po pp] at h'
    rw [agree pr pp]
    unfold Agree at h h' ⊢
    obtain ⟨⟨rc, rg, rs⟩, rl, rG⟩ := r
    obtain ⟨⟨oc, og, os⟩, ol, oG⟩ := o
    obtain ⟨⟨pc, pg, ps⟩, pl, pG⟩ := p
    simp only at h h' ⊢
    rcases h with ⟨e, e'⟩ | ⟨e, e', e''⟩ | ⟨e, e', e''⟩ | ⟨e, e', e''⟩ | ⟨e, e', e''⟩
    · subst e e'; exact h'
    · subst e e'
      rcases h' with ⟨f, f'⟩ | ⟨f, f', f''⟩ | ⟨f, f', f''⟩ | ⟨f, f', f''⟩ | ⟨f, f', f''⟩
      · subst f f'; exact Or.inr (Or.inl ⟨rfl, rfl, e''⟩)
      · exact absurd f (by simp)
      · subst f'; exact Or.inl ⟨rfl, inj e'' f''⟩
      · exact absurd f (by simp)
      · exact absurd f (by simp)
    · subst e e'
      rcases h' with ⟨f, f'⟩ | ⟨f, f', f''⟩ | ⟨f, f', f''⟩ | ⟨f, f', f''⟩ | ⟨f, f', f''⟩
      · subst f f'; exact Or.inr (Or.inr (Or.inl ⟨rfl, rfl, e''⟩))
      · subst f'; exact Or.inl ⟨rfl, Option.some.inj (e''.symm.trans f'')⟩
      · exact absurd f (by simp)
      · exact absurd f (by simp)
      · exact absurd f (by simp)
    · subst e e'
      rcases h' with ⟨f, f'⟩ | ⟨f, f', f''⟩ | ⟨f, f', f''⟩ | ⟨f, f', f''⟩ | ⟨f, f', f''⟩
      · subst f f'; exact Or.inr (Or.inr (Or.inr (Or.inl ⟨rfl, rfl, e''⟩)))
      · exact absurd f (by simp)
      · exact absurd f (by simp)
      · exact absurd f (by simp)
      · subst f'; exact Or.inl ⟨rfl, inj e'' f''⟩
    · subst e e'
      rcases h' with ⟨f, f'⟩ | ⟨f, f', f''⟩ | ⟨f, f', f''⟩ | ⟨f, f', f''⟩ | ⟨f, f', f''⟩
      · subst f f'; exact Or.inr (Or.inr (Or.inr (Or.inr ⟨rfl, rfl, e''⟩)))
      · exact absurd f (by simp)
      · exact absurd f (by simp)
      · subst f'; exact Or.inl ⟨rfl, Option.some.inj (e''.symm.trans f'')⟩
      · exact absurd f (by simp)

/-! ### Examples and counterexamples -/

/-- A grid, its constants and their barycentric version, and an adaptive one; the grid is refined and the spaces are made again. -/
def history : List Op :=
  [.newGrid, .space ⟨.constant, 0, none⟩, .space ⟨.constantBary, 0, none⟩, .adaptive ⟨.constantBary, 0, none⟩, .refine 0,
    .space ⟨.constant, 0, none⟩, .space ⟨.constantBary, 0, none⟩, .adaptive ⟨.linear, 0, none⟩]

/-- The hypotheses of the theorems are met: in that history the adaptive space has moved to the new barycentric grid (number 2), the
old constants and the new ones are compatible with the new barycentric ones, the old barycentric ones are not. -/
example : (run history).spaces = [.raw ⟨⟨.constant, 0, none⟩, 0, 0⟩, .raw ⟨⟨.constantBary, 0, none⟩, 0, 1⟩,
      .adaptive ⟨.constantBary, 0, none⟩ ⟨⟨.constantBary, 0, none⟩, 1, 2⟩, .raw ⟨⟨.constant, 0, none⟩, 1, 0⟩,
      .raw ⟨⟨.constantBary, 0, none⟩, 1, 2⟩, .adaptive ⟨.linear, 0, none⟩ ⟨⟨.linear, 0, none⟩, 1, 0⟩] ∧
    (Space.raw ⟨⟨.constant, 0, none⟩, 1, 0⟩).compatible (fun _ => 0) (run history).world (.raw ⟨⟨.constantBary, 0, none⟩, 1, 2⟩) =
      .ok true ∧
    (Space.raw ⟨⟨.constantBary, 0, none⟩, 0, 1⟩).compatible (fun _ => 0) (run history).world (.raw ⟨⟨.constant, 0, none⟩, 1, 0⟩) =
      .ok false := ⟨rfl, rfl, rfl⟩

/-- The law of the counts is met by numbers that grow with the refinement. -/
example : CountLaw fun r => if r.args.cls.kind = .constants then 4 ^ (r.level + 1) else 2 * 4 ^ r.level + 2 :=
  ⟨fun _ _ _ _ => rfl, fun _ _ _ => rfl, fun _ _ _ => rfl⟩

open Verif.Space in
/-- The dofs of the constants and of the linear functions on the whole of a grid with this leaf view. -/
def countOn (v : Grid.View) (r : Raw) : Nat :=
  match r.args.cls with
  | .constant => (assignP0 v (Grid.wholeGrid v)).globalDofCount
  | .linear => match assignP1 v (Grid.wholeGrid v) false with
    | .ok m => m.globalDofCount
    | .error _ => 0
  | _ => 0

/-- The surface of a tetrahedron. -/
def tetrahedron : List Grid.Tri := [⟨0, 2, 1⟩, ⟨0, 1, 3⟩, ⟨1, 2, 3⟩, ⟨0, 3, 2⟩]

/-- **Compatible spaces of the Python API need not be the same spaces.**  On the surface of a tetrahedron there are as many triangles
as vertices: the constants and the continuous linear functions are compatible, although the functions differ. -/
theorem C119_counterexample_python : ∃ d, Grid.DataContainer.init 4 tetrahedron 0 = some d ∧
    ∃ (ops : List Op) (a b : Args) (x y : Raw), Space.adaptive a x ∈ (run ops).spaces ∧ Space.adaptive b y ∈ (run ops).spaces ∧
      countOn (d.view fun _ => 1) x = 4 ∧ countOn (d.view fun _ => 1) y = 4 ∧
      (Space.adaptive a x).compatible (countOn (d.view fun _ => 1)) (run ops).world (.adaptive b y) = .ok true ∧
      ¬ SameFunctions x y := by
  refine ⟨_, rfl, [.newGrid, .adaptive ⟨.constant, 0, none⟩, .adaptive ⟨.linear, 0, none⟩], ⟨.constant, 0, none⟩, ⟨.linear, 0, none⟩,
    ⟨⟨.constant, 0, none⟩, 0, 0⟩, ⟨⟨.linear, 0, none⟩, 0, 0⟩, by decide, by decide, by decide +kernel, by decide +kernel,
    by decide +kernel, fun h => absurd h.1 (by decide)⟩

/-- **The segments are not compared.**  Constants on a part of the grid are compatible with the constants on the whole grid; on two
triangles there are one and two of them. -/
theorem C119_counterexample_segment : (∃ (ops : List Op) (x y : Raw), Space.raw x ∈ (run ops).spaces ∧ Space.raw y ∈ (run ops).spaces ∧
      x.args.segment = some 0 ∧ y.args.segment = none ∧
      ∀ count, (Space.raw x).compatible count (run ops).world (.raw y) = .ok true) ∧
    ∃ d, Grid.DataContainer.init 4 Space.twoTris 0 = some d ∧
      (Space.assignP0 (d.view fun _ => 1) ⟨Space.twoCounts, fun c => if c = 0 then {1} else ∅⟩).globalDofCount = 1 ∧
      (Space.assignP0 (d.view fun _ => 1) (Grid.wholeGrid (d.view fun _ => 1))).globalDofCount = 2 :=
  ⟨⟨[.newGrid, .space ⟨.constant, 0, some 0⟩, .space ⟨.constant, 0, none⟩], ⟨⟨.constant, 0, some 0⟩, 0, 0⟩,
    ⟨⟨.constant, 0, none⟩, 0, 0⟩, by decide, by decide, rfl, rfl, fun _ => rfl⟩, _, rfl, by decide +kernel, by decide +kernel⟩

/-- **Refinements are not compared.**  A space made before the grid was refined is compatible with one made after it. -/
theorem C119_counterexample_refined : ∃ (ops : List Op) (x y : Raw), Space.raw x ∈ (run ops).spaces ∧ Space.raw y ∈ (run ops).spaces ∧
    ¬ UpToDate (run ops).world x ∧ UpToDate (run ops).world y ∧
    ∀ count, (Space.raw x).compatible count (run ops).world (.raw y) = .ok true :=
  ⟨[.newGrid, .space ⟨.constant, 0, none⟩, .refine 0, .space ⟨.constant, 0, none⟩], ⟨⟨.constant, 0, none⟩, 0, 0⟩,
    ⟨⟨.constant, 0, none⟩, 1, 0⟩, by decide, by decide, (by decide : ¬ (0 : Nat) = 1), rfl, fun _ => rfl⟩

/-- **The discontinuous linear functions on the barycentric refinement have the identifier of the continuous ones**: they are
compatible with the continuous linear functions, and not with the discontinuous ones. -/
theorem C119_counterexample_identifier : ∃ (ops : List Op) (x y z : Raw), Space.raw x ∈ (run ops).spaces ∧
    Space.raw y ∈ (run ops).spaces ∧ Space.raw z ∈ (run ops).spaces ∧ ¬ SameFunctions x y ∧ SameFunctions x z ∧
    ∀ count, (Space.raw x).compatible count (run ops).world (.raw y) = .ok true ∧
      (Space.raw x).compatible count (run ops).world (.raw z) = .ok false :=
  ⟨[.newGrid, .space ⟨.linearDiscBary, 0, none⟩, .space ⟨.linear, 0, none⟩, .space ⟨.linearDisc, 0, none⟩],
    ⟨⟨.linearDiscBary, 0, none⟩, 0, 1⟩, ⟨⟨.linear, 0, none⟩, 0, 0⟩, ⟨⟨.linearDisc, 0, none⟩, 0, 0⟩, by decide, by decide, by decide,
    fun h => absurd h.1 (by decide), ⟨rfl, rfl⟩, fun _ => ⟨rfl, rfl⟩⟩

/-- **Vector functions on the barycentric refinement are not compatible with the functions they represent**: Raviart-Thomas functions,
while the constants are. -/
theorem C119_counterexample_vector : ∃ (ops : List Op) (x y : Raw), Space.raw x ∈ (run ops).spaces ∧ Space.raw y ∈ (run ops).spaces ∧
    SameFunctions x y ∧ UpToDate (run ops).world x ∧ UpToDate (run ops).world y ∧
    ∀ count, (Space.raw x).compatible count (run ops).world (.raw y) = .ok false :=
  ⟨[.newGrid, .space ⟨.rt, 0, none⟩, .space ⟨.rtBary, 0, none⟩], ⟨⟨.rt, 0, none⟩, 0, 0⟩, ⟨⟨.rtBary, 0, none⟩, 0, 1⟩,
    by decide, by decide, ⟨rfl, rfl⟩, rfl, rfl, fun _ => rfl⟩

/-- **Between a concrete class and an adaptive space the answer depends on which is asked**: the constants are compatible with the
linear functions or not (on the tetrahedron, where both have four dofs), and the polynomials throw `std::bad_cast` when they are
compared with the adaptive space of the same polynomials, which in turn is compatible with them. -/
theorem C119_counterexample_mixed : (∃ (ops : List Op) (x : Raw) (s : Space), Space.raw x ∈ (run ops).spaces ∧ s ∈ (run ops).spaces ∧
      (∀ count, (Space.raw x).compatible count (run ops).world s = .ok false) ∧
      s.compatible (fun _ => 4) (run ops).world (.raw x) = .ok true) ∧
    ∃ (ops : List Op) (x : Raw) (s : Space), Space.raw x ∈ (run ops).spaces ∧ s ∈ (run ops).spaces ∧ s.current = x ∧
      ∀ count, (Space.raw x).compatible count (run ops).world s = .error .badCast ∧
        s.compatible count (run ops).world (.raw x) = .ok true :=
  ⟨⟨[.newGrid, .space ⟨.constant, 0, none⟩, .adaptive ⟨.linear, 0, none⟩], ⟨⟨.constant, 0, none⟩, 0, 0⟩,
    .adaptive ⟨.linear, 0, none⟩ ⟨⟨.linear, 0, none⟩, 0, 0⟩, by decide, by decide, fun _ => rfl, rfl⟩,
    [.newGrid, .space ⟨.polyDisc 2, 0, none⟩, .adaptive ⟨.polyDisc 2, 0, none⟩], ⟨⟨.polyDisc 2, 0, none⟩, 0, 0⟩,
    .adaptive ⟨.polyDisc 2, 0, none⟩ ⟨⟨.polyDisc 2, 0, none⟩, 0, 0⟩, by decide, by decide, rfl, fun count =>
      ⟨rfl, by simp [Space.compatible, Space.current]⟩⟩

end Verif.Compat
