import Verif.Spec.Compat
import Mathlib.Tactic.Tauto
import Mathlib.Order.Nat
/-
Invariants of the histories of grids and spaces.
-/
namespace Verif.Compat

/-- Barycentric refinements are younger than their grid and belong to one grid. -/
def WorldOk (w : World) : Prop := ∀ g b, w.bary g = some b → g < b ∧ b < w.next ∧ w.owner b = some g

/-- The grid a space refers to exists and belongs to the grid it was made for. -/
structure RawOk (w : World) (r : Raw) : Prop where
  made : r.grid < w.next
  base : r.args.grid < w.next
  own : r.args.cls.onBarycentric = false → r.grid = r.args.grid
  bary : r.args.cls.onBarycentric = true → w.owner r.grid = some r.args.grid

/-- `w'` has the grids of `w`, not refined, and perhaps more. -/
structure Extends (w w' : World) : Prop where
  next : w.next ≤ w'.next
  level : w'.level = w.level
  bary : ∀ g b, w.bary g = some b → w'.bary g = some b
  owner : ∀ g, g < w.next → w'.owner g = w.owner g

theorem Extends.refl (w : World) : Extends w w := ⟨le_refl _, rfl, fun _ _ h => h, fun _ _ => rfl⟩

theorem Extends.trans {u v w : World} (h : Extends u v) (h' : Extends v w) : Extends u w :=
  ⟨h.next.trans h'.next, h'.level.trans h.level, fun g b hb => h'.bary g b (h.bary g b hb),
    fun g hg => (h'.owner g (lt_of_lt_of_le hg h.next)).trans (h.owner g hg)⟩

theorem RawOk.mono {w w' : World} {r : Raw} (h : RawOk w r) (e : Extends w w') : RawOk w' r :=
  ⟨lt_of_lt_of_le h.made e.next, lt_of_lt_of_le h.base e.next, h.own, fun hb => (e.owner _ h.made).trans (h.bary hb)⟩

/-- `c` is what the constructor would make now. -/
def Current (w : World) (a : Args) (c : Raw) : Prop := w.create a = (c, w)

theorem current_iff {w : World} {a : Args} {c : Raw} : Current w a c ↔ c.args = a ∧ c.level = w.level a.grid ∧
    (a.cls.onBarycentric = true → w.bary a.grid = some c.grid) ∧ (a.cls.onBarycentric = false → c.grid = a.grid) := by
  unfold Current World.create
  obtain ⟨ca, cl, cg⟩ := c
  by_cases hb : a.cls.onBarycentric = true
  · rw [if_pos hb]
    unfold World.baryGrid
    cases hbg : w.bary a.grid with
    | some b =>
      simp only [Prod.mk.injEq, Raw.mk.injEq, and_true, hb, forall_true_left, Option.some.injEq, Bool.true_eq_false,
        false_imp_iff]
      tauto
    | none =>
      constructor
      · intro h
        have := congrArg (fun p : Raw × World => p.2.next) h
        simp at this
      · rintro ⟨_, _, h, _⟩
        exact absurd (h hb) (by simp)
  · rw [if_neg hb]
    have hb' : a.cls.onBarycentric = false := by simpa using hb
    simp only [Prod.mk.injEq, Raw.mk.injEq, and_true, hb', Bool.false_eq_true, false_imp_iff, forall_true_left, true_and]
    tauto

theorem Current.mono {w w' : World} {a : Args} {c : Raw} (h : Current w a c) (e : Extends w w') : Current w' a c := by
  rw [current_iff] at h ⊢
  obtain ⟨h1, h2, h3, h4⟩ := h
  exact ⟨h1, by rw [e.level]; exact h2, fun hb => e.bary _ _ (h3 hb), h4⟩

theorem newGrid_ok {w : World} (hw : WorldOk w) : WorldOk w.newGrid ∧ Extends w w.newGrid :=
  ⟨fun g b h => ⟨(hw g b h).1, Nat.lt_succ_of_lt (hw g b h).2.1, (hw g b h).2.2⟩,
    ⟨Nat.le_succ _, rfl, fun _ _ h => h, fun _ _ => rfl⟩⟩

theorem baryGrid_ok {w : World} (hw : WorldOk w) {g : Nat} (hg : g < w.next) : WorldOk (w.baryGrid g).2 ∧
    Extends w (w.baryGrid g).2 ∧ (w.baryGrid g).2.bary g = some (w.baryGrid g).1 := by
  unfold World.baryGrid
  cases hbg : w.bary g with
  | some b => exact ⟨hw, Extends.refl w, hbg⟩
  | none =>
    refine ⟨?_, ⟨Nat.le_succ _, rfl, ?_, ?_⟩, by simp⟩
    · intro g' b h
      simp only [Function.update_apply] at h ⊢
      by_cases hgg : g' = g
      · rw [if_pos hgg] at h
        injection h with h
        subst h
        rw [if_pos rfl]
        exact ⟨by omega, Nat.lt_succ_self _, by rw [hgg]⟩
      · rw [if_neg hgg] at h
        obtain ⟨h1, h2, h3⟩ := hw g' b h
        rw [if_neg (by omega)]
        exact ⟨h1, by omega, h3⟩
    · intro g' b h
      simp only [Function.update_apply]
      rw [if_neg (by rintro rfl; rw [hbg] at h; exact absurd h (by simp))]
      exact h
    · intro g' h
      simp only [Function.update_apply]
      rw [if_neg (by omega)]

theorem create_ok {w : World} (hw : WorldOk w) {a : Args} (hg : a.grid < w.next) : WorldOk (w.create a).2 ∧
    Extends w (w.create a).2 ∧ RawOk (w.create a).2 (w.create a).1 ∧ Current (w.create a).2 a (w.create a).1 := by
  rw [current_iff]
  unfold World.create
  by_cases hb : a.cls.onBarycentric = true
  · rw [if_pos hb]
    obtain ⟨h1, h2, h3⟩ := baryGrid_ok hw hg
    obtain ⟨h4, h5, h6⟩ := h1 _ _ h3
    refine ⟨h1, h2, ⟨h5, lt_of_lt_of_le hg h2.next, ?_, fun _ => h6⟩, rfl, ?_, fun _ => h3, ?_⟩
    · intro h; rw [hb] at h; exact absurd h (by simp)
    · show w.level a.grid = (w.baryGrid a.grid).2.level a.grid
      rw [h2.level]
    · intro h; rw [hb] at h; exact absurd h (by simp)
  · rw [if_neg hb]
    refine ⟨hw, Extends.refl w, ⟨hg, hg, fun _ => rfl, fun h => absurd h hb⟩, rfl, rfl, fun h => absurd h hb, fun _ => rfl⟩

theorem refine_ok {w : World} (hw : WorldOk w) (g : Nat) : WorldOk (w.refine g) := by
  intro g' b h
  simp only [World.refine, Function.update_apply] at h ⊢
  by_cases hgg : g' = g
  · rw [if_pos hgg] at h; exact absurd h (by simp)
  · rw [if_neg hgg] at h; exact hw g' b h

theorem refine_raw {w : World} {r : Raw} (h : RawOk w r) (g : Nat) : RawOk (w.refine g) r := ⟨h.made, h.base, h.own, h.bary⟩

theorem refine_current {w : World} {a : Args} {c : Raw} (h : Current w a c) {g : Nat} (hg : a.grid ≠ g) :
    Current (w.refine g) a c := by
  rw [current_iff] at h ⊢
  obtain ⟨h1, h2, h3, h4⟩ := h
  refine ⟨h1, ?_, fun hb => ?_, h4⟩
  · simp only [World.refine, Function.update_apply, if_neg hg]; exact h2
  · simp only [World.refine, Function.update_apply, if_neg hg]; exact h3 hb

/-- A space in a world. -/
def SpaceOk (w : World) : Space → Prop
  | .raw r => RawOk w r
  | .adaptive a c => RawOk w c ∧ Current w a c

/-- As `SpaceOk`, but the adaptive spaces of grid `g` need not be up to date. -/
def SpaceOkBut (g : Nat) (w : World) : Space → Prop
  | .raw r => RawOk w r
  | .adaptive a c => RawOk w c ∧ c.args = a ∧ (a.grid ≠ g → Current w a c)

theorem SpaceOk.mono {w w' : World} {s : Space} (h : SpaceOk w s) (e : Extends w w') : SpaceOk w' s := by
  cases s with
  | raw r => exact RawOk.mono h e
  | adaptive a c => exact ⟨h.1.mono e, h.2.mono e⟩

theorem SpaceOkBut.mono {g : Nat} {w w' : World} {s : Space} (h : SpaceOkBut g w s) (e : Extends w w') : SpaceOkBut g w' s := by
  cases s with
  | raw r => exact RawOk.mono h e
  | adaptive a c => exact ⟨h.1.mono e, h.2.1, fun hn => (h.2.2 hn).mono e⟩

theorem updateSpaces_ok (g : Nat) : ∀ (l : List Space) (w : World), WorldOk w → (∀ s ∈ l, SpaceOkBut g w s) →
    WorldOk (updateSpaces g w l).1 ∧ Extends w (updateSpaces g w l).1 ∧
    ∀ s ∈ (updateSpaces g w l).2, SpaceOk (updateSpaces g w l).1 s := by
  intro l
  induction l with
  | nil => intro w hw _; exact ⟨hw, Extends.refl w, by simp [updateSpaces]⟩
  | cons s l ih =>
    intro w hw hs
    have hs0 := hs s (by simp)
    have hsl : ∀ t ∈ l, SpaceOkBut g w t := fun t ht => hs t (by simp [ht])
    cases s with
    | raw r =>
      obtain ⟨h1, h2, h3⟩ := ih w hw hsl
      refine ⟨h1, h2, ?_⟩
      intro t ht
      simp only [updateSpaces, List.mem_cons] at ht
      rcases ht with rfl | ht
      · exact RawOk.mono hs0 h2
      · exact h3 t ht
    | adaptive a c =>
      by_cases hag : a.grid = g
      · have hbase : a.grid < w.next := by rw [← hs0.2.1]; exact hs0.1.base
        obtain ⟨c1, c2, c3, c4⟩ := create_ok hw hbase
        obtain ⟨h1, h2, h3⟩ := ih (w.create a).2 c1 (fun t ht => (hsl t ht).mono c2)
        simp only [updateSpaces, if_pos hag]
        refine ⟨h1, c2.trans h2, ?_⟩
        intro t ht
        simp only [List.mem_cons] at ht
        rcases ht with rfl | ht
        · exact ⟨c3.mono h2, c4.mono h2⟩
        · exact h3 t ht
      · obtain ⟨h1, h2, h3⟩ := ih w hw hsl
        simp only [updateSpaces, if_neg hag]
        refine ⟨h1, h2, ?_⟩
        intro t ht
        simp only [List.mem_cons] at ht
        rcases ht with rfl | ht
        · exact ⟨hs0.1.mono h2, (hs0.2.2 hag).mono h2⟩
        · exact h3 t ht

/-- The invariant of all histories. -/
def StateOk (s : State) : Prop := WorldOk s.world ∧ ∀ t ∈ s.spaces, SpaceOk s.world t

theorem step_ok {s : State} (h : StateOk s) (op : Op) : StateOk (s.step op) := by
  obtain ⟨hw, hs⟩ := h
  cases op with
  | newGrid => exact ⟨(newGrid_ok hw).1, fun t ht => (hs t ht).mono (newGrid_ok hw).2⟩
  | barycentricGrid g =>
    unfold State.step
    by_cases hg : g < s.world.next
    · simp only [if_pos hg]
      obtain ⟨h1, h2, _⟩ := baryGrid_ok hw hg
      exact ⟨h1, fun t ht => (hs t ht).mono h2⟩
    · simp only [if_neg hg]; exact ⟨hw, hs⟩
  | refine g =>
    unfold State.step
    by_cases hg : g < s.world.next
    · simp only [if_pos hg]
      obtain ⟨h1, _, h3⟩ := updateSpaces_ok g s.spaces (s.world.refine g) (refine_ok hw g) (fun t ht => by
        have := hs t ht
        cases t with
        | raw r => exact refine_raw this g
        | adaptive a c => exact ⟨refine_raw this.1 g, (current_iff.1 this.2).1, fun hn => refine_current this.2 hn⟩)
      exact ⟨h1, h3⟩
    · simp only [if_neg hg]; exact ⟨hw, hs⟩
  | space a =>
    unfold State.step
    by_cases hg : a.grid < s.world.next
    · simp only [if_pos hg]
      obtain ⟨h1, h2, h3, _⟩ := create_ok hw hg
      refine ⟨h1, fun t ht => ?_⟩
      simp only [List.mem_append, List.mem_singleton] at ht
      rcases ht with ht | rfl
      · exact (hs t ht).mono h2
      · exact h3
    · simp only [if_neg hg]; exact ⟨hw, hs⟩
  | adaptive a =>
    unfold State.step
    by_cases hg : a.grid < s.world.next
    · simp only [if_pos hg]
      obtain ⟨h1, h2, h3, h4⟩ := create_ok hw hg
      refine ⟨h1, fun t ht => ?_⟩
      simp only [List.mem_append, List.mem_singleton] at ht
      rcases ht with ht | rfl
      · exact (hs t ht).mono h2
      · exact ⟨h3, h4⟩
    · simp only [if_neg hg]; exact ⟨hw, hs⟩

theorem foldl_ok (ops : List Op) : ∀ s : State, StateOk s → StateOk (ops.foldl State.step s) := by
  induction ops with
  | nil => exact fun s h => h
  | cons op ops ih => exact fun s h => ih _ (step_ok h op)

theorem run_ok (ops : List Op) : StateOk (run ops) :=
  foldl_ok ops _ ⟨fun g b h => by simp [State.init, World.empty] at h, by simp [State.init]⟩

theorem Space.current_ok {w : World} {s : Space} (h : SpaceOk w s) : RawOk w s.current := by
  cases s with
  | raw r => exact h
  | adaptive a c => exact h.1

end Verif.Compat
