import Verif.Spec.DiscontinuousSpace
/-
Invariants of the histories of Model/DiscontinuousSpace.
-/
namespace Verif.DiscSpace
open Verif.Compat

/-- A later world. -/
structure Later (w w' : World) : Prop where
  level : ∀ g, w.level g ≤ w'.level g
  bary : ∀ g b, w.level g = w'.level g → w.bary g = some b → w'.bary g = some b

theorem Later.refl (w : World) : Later w w := ⟨fun _ => le_rfl, fun _ _ _ h => h⟩

theorem Later.trans {a b c : World} (h : Later a b) (k : Later b c) : Later a c :=
  ⟨fun g => (h.level g).trans (k.level g), fun g x e hx => by
    have h1 := h.level g
    have h2 := k.level g
    exact k.bary g x (by omega) (h.bary g x (by omega) hx)⟩

theorem later_new (w : World) : Later w w.newGrid := ⟨fun _ => le_rfl, fun _ _ _ h => h⟩

theorem later_bary (w : World) (g : Nat) : Later w (w.baryGrid g).2 := by
  unfold World.baryGrid
  cases hb : w.bary g with
  | some b => exact .refl w
  | none =>
    refine ⟨fun _ => le_rfl, fun k b _ h => ?_⟩
    show Function.update w.bary g (some w.next) k = some b
    by_cases hk : k = g
    · subst hk; rw [hb] at h; cases h
    · rw [Function.update_of_ne hk]; exact h

theorem later_refine (w : World) (g : Nat) : Later w (w.refine g) := by
  refine ⟨fun k => ?_, fun k b e h => ?_⟩
  · show w.level k ≤ Function.update w.level g (w.level g + 1) k
    by_cases hk : k = g
    · subst hk; simp
    · rw [Function.update_of_ne hk]
  · change w.level k = Function.update w.level g (w.level g + 1) k at e
    show Function.update w.bary g none k = some b
    by_cases hk : k = g
    · subst hk; simp at e
    · rw [Function.update_of_ne hk]; exact h

theorem later_create (w : World) (a : Args) : Later w (w.create a).2 := by
  unfold World.create
  split
  · exact later_bary w a.grid
  · exact .refl w

theorem bary_level (w : World) (g : Nat) : (w.baryGrid g).2.level = w.level := by
  unfold World.baryGrid; split <;> rfl

theorem bary_some (w : World) (g : Nat) : (w.baryGrid g).2.bary g = some (w.baryGrid g).1 := by
  unfold World.baryGrid
  split
  · assumption
  · simp

/-- What holds of a space since it was made. -/
structure SpaceOk (w : World) (r : Raw) : Prop where
  level : r.level ≤ w.level r.args.grid
  base : r.args.cls.onBarycentric = false → r.grid = r.args.grid
  bary : r.args.cls.onBarycentric = true → UpToDate w r → w.bary r.args.grid = some r.grid

theorem SpaceOk.later {w w' : World} {r : Raw} (h : SpaceOk w r) (l : Later w w') : SpaceOk w' r := by
  refine ⟨h.level.trans (l.level _), h.base, fun ho hu => ?_⟩
  have h1 := h.level
  have h2 := l.level r.args.grid
  unfold UpToDate at hu
  exact l.bary _ _ (by omega) (h.bary ho (by unfold UpToDate; omega))

theorem create_ok' (w : World) (a : Args) : SpaceOk (w.create a).2 (w.create a).1 ∧ (w.create a).1.args = a ∧
    (w.create a).1.level = w.level a.grid := by
  unfold World.create
  by_cases h : a.cls.onBarycentric = true
  · rw [if_pos h]
    refine ⟨⟨?_, fun hb => ?_, fun _ _ => bary_some w a.grid⟩, rfl, rfl⟩
    · show w.level a.grid ≤ (w.baryGrid a.grid).2.level a.grid
      rw [bary_level]
    · change a.cls.onBarycentric = false at hb
      rw [h] at hb; cases hb
  · rw [if_neg h]
    exact ⟨⟨le_rfl, fun _ => rfl, fun hb => absurd hb h⟩, rfl, rfl⟩

theorem counterpart_world {w w1 : World} {r : Raw} {c : Counterpart} (h : counterpart w r = (c, w1)) :
    Later w w1 ∧ w1.level = w.level := by
  unfold counterpart at h
  split at h <;> (cases h; first | exact ⟨.refl _, rfl⟩ | exact ⟨later_bary _ _, bary_level _ _⟩)

theorem counterpart_make {w w1 : World} {r : Raw} {a : Args} (h : counterpart w r = (.make a, w1)) :
    isDiscontinuous r.args.cls = false ∧ r.args.cls ≠ .unit := by
  unfold counterpart at h
  split at h <;> first | (cases h; done) | skip
  all_goals first
    | (rename_i hc; simp [hc, isDiscontinuous]; done)
    | (cases hcl : r.args.cls <;> simp_all [isDiscontinuous])

/-- A new counterpart. -/
theorem make_counterpart {w w1 : World} {r : Raw} {a : Args} (h : counterpart w r = (.make a, w1)) (hok : SpaceOk w r) (hk : Kept r)
    (hu : UpToDate w r) : IsCounterpart r (w1.create a).1 := by
  have hlev := (counterpart_world h).2
  obtain ⟨⟨cls, G, seg⟩, l, g⟩ := r
  obtain ⟨hk1, hk2, hk3, hk4⟩ := hk
  unfold UpToDate at hu
  dsimp only at hk1 hk2 hk3 hk4 hu
  have hbase := hok.base
  have hbary := hok.bary
  dsimp only at hbase hbary
  cases cls <;> simp only [counterpart, Prod.mk.injEq, Counterpart.make.injEq, reduceCtorEq, false_and, ne_eq, not_true_eq_false] at h hk1 hk2 hk3
  all_goals
    obtain ⟨ha, hw⟩ := h
    subst ha
    simp only [World.create, Cls.onBarycentric, Bool.false_eq_true, if_false]
    refine ⟨rfl, ?_, by simp [Cls.kind, Covers], ?_, ?_, ?_⟩
  all_goals first
    | rfl
    | (exact fun e => e.elim)
    | (intro e; dsimp only at e ⊢; rw [hlev, e]; exact hu.symm)
    | (left; rfl)
    | (left; exact hk4 rfl)
    | (right; exact ⟨rfl, hbase rfl⟩)
    | (intro _; rfl)
    | (have hb := hbary rfl hu; dsimp only at hb ⊢; unfold World.baryGrid; rw [hb])

/-- A discontinuous space is its own counterpart. -/
theorem self_counterpart {r : Raw} (h : isDiscontinuous r.args.cls = true) : IsCounterpart r r := by
  refine ⟨h, rfl, ?_, .inr ⟨rfl, rfl⟩, fun _ => rfl, fun _ => rfl⟩
  cases hc : r.args.cls <;> simp_all [isDiscontinuous, Cls.kind, Covers]

theorem counterpart_self {w : World} {r : Raw} (h : isDiscontinuous r.args.cls = true) : counterpart w r = (.self, w) := by
  unfold counterpart
  cases hc : r.args.cls <;> simp_all [isDiscontinuous]

/-- The invariant. -/
structure Ok (s : State) : Prop where
  spaces : ∀ (i : Nat) (r : Raw), s.spaces[i]? = some r → SpaceOk s.world r
  kept : ∀ i j : Nat, s.kept i = some j → ∃ r o : Raw, s.spaces[i]? = some r ∧ s.spaces[j]? = some o ∧
    (isDiscontinuous r.args.cls = false ∧ r.args.cls ≠ .unit) ∧
    (Kept r → UpToDate s.world r → IsCounterpart r o)

theorem append_get {l : List Raw} {i : Nat} {r : Raw} (x : Raw) (h : l[i]? = some r) : (l ++ [x])[i]? = some r := by
  rw [List.getElem?_append_left ((List.getElem?_eq_some_iff.1 h).1)]; exact h

theorem Ok.later {s : State} (h : Ok s) {w : World} (l : Later s.world w) : Ok { s with world := w } := by
  refine ⟨fun i r hr => (h.spaces i r hr).later l, fun i j hj => ?_⟩
  obtain ⟨r, o, hr, ho, hd, hc⟩ := h.kept i j hj
  refine ⟨r, o, hr, ho, hd, fun hk hu => hc hk ?_⟩
  have h1 := (h.spaces i r hr).level
  have h2 := l.level r.args.grid
  unfold UpToDate at hu ⊢
  dsimp only at hu
  omega

theorem Ok.push {s : State} (h : Ok s) {x : Raw} (hx : SpaceOk s.world x) : Ok { s with spaces := s.spaces ++ [x] } := by
  refine ⟨fun i r hr => ?_, fun i j hj => ?_⟩
  · dsimp only at hr ⊢
    rcases lt_or_ge i s.spaces.length with hi | hi
    · rw [List.getElem?_append_left hi] at hr; exact h.spaces i r hr
    · rw [List.getElem?_append_right hi] at hr
      have : r = x := by
        cases hn : i - s.spaces.length with
        | zero => rw [hn] at hr; simpa using hr.symm
        | succ n => rw [hn] at hr; simp at hr
      rw [this]; exact hx
  · obtain ⟨r, o, hr, ho, hd, hc⟩ := h.kept i j hj
    exact ⟨r, o, append_get x hr, append_get x ho, hd, hc⟩

theorem disc_ok {s : State} (h : Ok s) {i self : Nat} {r : Raw} (hr : s.spaces[i]? = some r) :
    Ok (s.discontinuousSpace i r self).2 := by
  unfold State.discontinuousSpace
  cases hk : s.kept i with
  | some j => exact h
  | none =>
    dsimp only
    rcases hc : counterpart s.world r with ⟨c, w⟩
    cases c with
    | self => dsimp only; split <;> exact h
    | throws => exact h
    | make a =>
      dsimp only
      have hl := counterpart_world hc
      obtain ⟨hso, hargs, hlev⟩ := create_ok' w a
      have h2 : Ok { s with world := (w.create a).2, spaces := s.spaces ++ [(w.create a).1] } :=
        (h.later (hl.1.trans (later_create w a))).push hso
      refine ⟨h2.spaces, fun k j hj => ?_⟩
      by_cases hki : k = i
      · subst hki
        dsimp only at hj
        rw [Function.update_self] at hj
        cases hj
        refine ⟨r, (w.create a).1, append_get _ hr, by simp, counterpart_make hc, fun hk hu => ?_⟩
        refine make_counterpart hc (h.spaces _ r hr) hk ?_
        have h1 := (h.spaces _ r hr).level
        have h3 := (hl.1.trans (later_create w a)).level r.args.grid
        unfold UpToDate at hu ⊢
        dsimp only at hu
        omega
      · dsimp only at hj
        rw [Function.update_of_ne hki] at hj
        exact h2.kept k j hj

theorem step_ok {s : State} (h : Ok s) (op : Op) : Ok (s.step op) := by
  cases op with
  | newGrid => exact h.later (later_new _)
  | barycentricGrid g =>
    simp only [State.step]; split
    · exact h.later (later_bary _ g)
    · exact h
  | refine g =>
    simp only [State.step]; split
    · exact h.later (later_refine _ g)
    · exact h
  | space a =>
    simp only [State.step]; split
    · exact (h.later (later_create s.world a)).push (create_ok' s.world a).1
    · exact h
  | discontinuous i self =>
    simp only [State.step]
    cases hr : s.spaces[i]? with
    | some r => exact disc_ok h hr
    | none => exact h

theorem run_ok {s : State} (h : Ok s) (ops : List Op) : Ok (s.run ops) := by
  unfold State.run
  induction ops generalizing s with
  | nil => exact h
  | cons a as ih => exact ih (step_ok h a)

theorem init_ok : Ok State.init := ⟨fun i r h => by simp [State.init] at h, fun i j h => by simp [State.init] at h⟩

/-- What is kept is kept, and objects stay. -/
theorem step_stays (s : State) (op : Op) : (∀ i j, s.kept i = some j → (s.step op).kept i = some j) ∧
    ∀ (i : Nat) (r : Raw), s.spaces[i]? = some r → (s.step op).spaces[i]? = some r := by
  cases op with
  | newGrid => exact ⟨fun _ _ h => h, fun _ _ h => h⟩
  | barycentricGrid g => simp only [State.step]; split <;> exact ⟨fun _ _ h => h, fun _ _ h => h⟩
  | refine g => simp only [State.step]; split <;> exact ⟨fun _ _ h => h, fun _ _ h => h⟩
  | space a =>
    simp only [State.step]; split
    · exact ⟨fun _ _ h => h, fun _ _ h => append_get _ h⟩
    · exact ⟨fun _ _ h => h, fun _ _ h => h⟩
  | discontinuous i self =>
    simp only [State.step]
    cases hr : s.spaces[i]? with
    | none => exact ⟨fun _ _ h => h, fun _ _ h => h⟩
    | some r =>
      dsimp only
      unfold State.discontinuousSpace
      cases hk : s.kept i with
      | some j => exact ⟨fun _ _ h => h, fun _ _ h => h⟩
      | none =>
        dsimp only
        rcases hc : counterpart s.world r with ⟨c, w⟩
        cases c with
        | self => dsimp only; split <;> exact ⟨fun _ _ h => h, fun _ _ h => h⟩
        | throws => exact ⟨fun _ _ h => h, fun _ _ h => h⟩
        | make a =>
          refine ⟨fun k j hj => ?_, fun _ _ h => append_get _ h⟩
          show Function.update s.kept i (some s.spaces.length) k = some j
          by_cases hki : k = i
          · subst hki; rw [hk] at hj; cases hj
          · rw [Function.update_of_ne hki]; exact hj

theorem run_stays (s : State) (ops : List Op) : (∀ i j, s.kept i = some j → (s.run ops).kept i = some j) ∧
    ∀ (i : Nat) (r : Raw), s.spaces[i]? = some r → (s.run ops).spaces[i]? = some r := by
  unfold State.run
  induction ops generalizing s with
  | nil => exact ⟨fun _ _ h => h, fun _ _ h => h⟩
  | cons a as ih =>
    exact ⟨fun i j h => (ih _).1 i j ((step_stays s a).1 i j h), fun i r h => (ih _).2 i r ((step_stays s a).2 i r h)⟩

end Verif.DiscSpace
