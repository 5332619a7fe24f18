import Verif.Lemmas.Refine
import Mathlib.Algebra.BigOperators.Group.List.Lemmas
/-
Lemmas about the elements of the refined grid.
-/
namespace Verif.Refine
open Verif.Grid
noncomputable section

deriving instance DecidableEq for RefTriangle

/-- The triangles an element is split into. -/
def kids (cut : Sym2 Nat → Option Nat) (t : RefTriangle) : List RefTriangle :=
  match cut s(t.a, t.b), cut s(t.a, t.c), cut s(t.b, t.c) with
  | none, _, _ => [t]
  | some m, some n1, none => [⟨t.a, m, n1⟩, ⟨m, t.c, n1⟩, ⟨t.b, t.c, m⟩]
  | some m, some n1, some n2 => [⟨t.a, m, n1⟩, ⟨m, t.c, n1⟩, ⟨m, t.b, n2⟩, ⟨t.c, m, n2⟩]
  | some m, none, some n2 => [⟨m, t.b, n2⟩, ⟨t.c, m, n2⟩, ⟨t.c, t.a, m⟩]
  | some m, none, none => [⟨t.c, t.a, m⟩, ⟨t.b, t.c, m⟩]

theorem split_triangles {v : View} {cut : Sym2 Nat → Option Nat} {R : Nat → Nat → Option Nat} {e : Nat} (hr : v.referenceEdge e < 3)
    (h : ∀ j < 3, R e j = cut (v.ends e j)) : (v.split R e).map NewElement.triangle = kids cut (v.triangle e) := by
  have h0 : R e 0 = cut s(v.corner e 0, v.corner e 1) := h 0 (by omega)
  have h1 : R e 1 = cut s(v.corner e 0, v.corner e 2) := h 1 (by omega)
  have h2 : R e 2 = cut s(v.corner e 1, v.corner e 2) := h 2 (by omega)
  unfold View.split kids View.triangle
  generalize v.referenceEdge e = r at hr ⊢
  interval_cases r
  · simp only [refTriangle, edgeToLocalVertices, h0, h1, h2, Nat.zero_add, if_true, Nat.reduceMod, Nat.sub_zero]
    rcases cut s(v.corner e 0, v.corner e 1) with _ | m <;> rcases cut s(v.corner e 0, v.corner e 2) with _ | n1 <;>
      rcases cut s(v.corner e 1, v.corner e 2) with _ | n2 <;> rfl
  · simp only [refTriangle, edgeToLocalVertices, Nat.reduceAdd, if_true, Nat.reduceMod, Nat.reduceSub, one_ne_zero, if_false, h0, h1, h2,
      Sym2.eq_swap (a := v.corner e 2)]
    rcases cut s(v.corner e 0, v.corner e 1) with _ | m <;> rcases cut s(v.corner e 0, v.corner e 2) with _ | n1 <;>
      rcases cut s(v.corner e 1, v.corner e 2) with _ | n2 <;> rfl
  · simp only [refTriangle, edgeToLocalVertices, Nat.reduceAdd, if_true, Nat.reduceMod, Nat.reduceSub, OfNat.ofNat_ne_zero,
      OfNat.ofNat_ne_one, if_false, h0, h1, h2, Sym2.eq_swap (a := v.corner e 2), Sym2.eq_swap (a := v.corner e 1) (b := v.corner e 0)]
    rcases cut s(v.corner e 0, v.corner e 1) with _ | m <;> rcases cut s(v.corner e 0, v.corner e 2) with _ | n1 <;>
      rcases cut s(v.corner e 1, v.corner e 2) with _ | n2 <;> rfl

/-- Only edges between old vertices are cut, at new vertices; no vertex cuts two edges. -/
structure Good (vc : Nat) (cut : Sym2 Nat → Option Nat) : Prop where
  old : ∀ a b k, cut s(a, b) = some k → a < vc ∧ b < vc
  new : ∀ p k, cut p = some k → vc ≤ k
  inj : ∀ p q k, cut p = some k → cut q = some k → p = q

/-- A triangle with three different old vertices. -/
def RefTriangle.Old (vc : Nat) (t : RefTriangle) : Prop := t.a < vc ∧ t.b < vc ∧ t.c < vc ∧ t.a ≠ t.b ∧ t.a ≠ t.c ∧ t.b ≠ t.c

theorem Good.none_left {vc : Nat} {cut : Sym2 Nat → Option Nat} (h : Good vc cut) {a b : Nat} (ha : vc ≤ a) : cut s(a, b) = none := by
  cases hc : cut s(a, b) with
  | none => rfl
  | some k => have := (h.old a b k hc).1; omega

theorem Good.none_right {vc : Nat} {cut : Sym2 Nat → Option Nat} (h : Good vc cut) {a b : Nat} (ha : vc ≤ b) : cut s(a, b) = none := by
  cases hc : cut s(a, b) with
  | none => rfl
  | some k => have := (h.old a b k hc).2; omega

theorem Good.ne {vc : Nat} {cut : Sym2 Nat → Option Nat} (h : Good vc cut) {a b c d k l : Nat} (h1 : cut s(a, b) = some k)
    (h2 : cut s(c, d) = some l) (hne : s(a, b) ≠ s(c, d)) : k ≠ l := by
  rintro rfl
  exact hne (h.inj _ _ _ h1 h2)

theorem bisection_kids {vc : Nat} {cut : Sym2 Nat → Option Nat} (h : Good vc cut) (t : RefTriangle) : Bisection cut t (kids cut t) := by
  obtain ⟨a, b, c⟩ := t
  unfold kids
  dsimp only
  have hac : cut s(c, a) = cut s(a, c) := by rw [Sym2.eq_swap]
  cases h0 : cut s(a, b) with
  | none => exact .keep h0
  | some m =>
    have hm := h.new _ _ h0
    have hd : ∀ x y n, cut s(x, y) = some n → Bisection cut ⟨x, y, m⟩ [⟨m, x, n⟩, ⟨y, m, n⟩] := fun x y n hn =>
      .halve hn (.keep (h.none_left hm)) (.keep (h.none_right hm)) (List.Perm.refl _)
    cases h1 : cut s(a, c) with
    | none =>
      rw [h1] at hac
      cases h2 : cut s(b, c) with
      | none => exact .halve h0 (.keep hac) (.keep h2) (List.Perm.refl _)
      | some n2 =>
        have hp : ([⟨m, b, n2⟩, ⟨c, m, n2⟩] ++ [⟨c, a, m⟩] : List RefTriangle).Perm ([⟨c, a, m⟩] ++ [⟨m, b, n2⟩, ⟨c, m, n2⟩]) :=
          List.perm_append_comm
        exact .halve h0 (.keep hac) (hd _ _ _ h2) hp
    | some n1 =>
      rw [h1] at hac
      cases h2 : cut s(b, c) with
      | none => exact .halve h0 (hd _ _ _ hac) (.keep h2) (List.Perm.swap _ _ _)
      | some n2 => exact .halve h0 (hd _ _ _ hac) (hd _ _ _ h2) (List.Perm.swap _ _ _)

/-- The edges of a triangle. -/
def RefTriangle.edges (t : RefTriangle) : List (Sym2 Nat) := [s(t.a, t.b), s(t.a, t.c), s(t.b, t.c)]

/-- The vertices of a triangle. -/
def RefTriangle.verts (t : RefTriangle) : Finset Nat := {t.a, t.b, t.c}

/-- What becomes of an edge. -/
def halves (cut : Sym2 Nat → Option Nat) (a b : Nat) : List (Sym2 Nat) :=
  match cut s(a, b) with
  | none => [s(a, b)]
  | some m => [s(a, m), s(b, m)]

/-- The edges inside a triangle. -/
def interior (cut : Sym2 Nat → Option Nat) (t : RefTriangle) : List (Sym2 Nat) :=
  match cut s(t.a, t.b), cut s(t.a, t.c), cut s(t.b, t.c) with
  | none, _, _ => []
  | some m, some n1, none => [s(t.c, m), s(m, n1)]
  | some m, some n1, some n2 => [s(t.c, m), s(m, n1), s(m, n2)]
  | some m, none, some n2 => [s(t.c, m), s(m, n2)]
  | some m, none, none => [s(t.c, m)]

/-- Reference edges are cut first. -/
def Closed (cut : Sym2 Nat → Option Nat) (t : RefTriangle) : Prop := cut s(t.a, t.b) = none → cut s(t.a, t.c) = none ∧ cut s(t.b, t.c) = none

theorem count_kids (cut : Sym2 Nat → Option Nat) (t : RefTriangle) (hc : Closed cut t) (p : Sym2 Nat) :
    ((kids cut t).flatMap RefTriangle.edges).count p =
      (halves cut t.a t.b).count p + (halves cut t.a t.c).count p + (halves cut t.b t.c).count p + 2 * (interior cut t).count p := by
  obtain ⟨a, b, c⟩ := t
  unfold Closed at hc
  unfold kids halves interior RefTriangle.edges
  dsimp only at hc ⊢
  rcases h0 : cut s(a, b) with _ | m
  · obtain ⟨h1, h2⟩ := hc h0
    rw [h1, h2]
    simp only [List.flatMap_cons, List.flatMap_nil, List.append_nil, List.count_cons, List.count_nil]
    ring
  · rcases h1 : cut s(a, c) with _ | n1 <;> rcases h2 : cut s(b, c) with _ | n2 <;>
      simp only [List.flatMap_cons, List.flatMap_nil, List.append_nil, List.cons_append, List.nil_append, List.count_cons, List.count_nil,
        Sym2.eq_swap (a := m), Sym2.eq_swap (a := c) (b := a)] <;> ring

/-- The old vertices a vertex stands for. -/
def Supp (vc : Nat) (cut : Sym2 Nat → Option Nat) (k x : Nat) : Prop := (k < vc ∧ x = k) ∨ ∃ p, cut p = some k ∧ x ∈ p

theorem Good.supp_old {vc : Nat} {cut : Sym2 Nat → Option Nat} (h : Good vc cut) {k x : Nat} (hk : k < vc) : Supp vc cut k x ↔ x = k := by
  constructor
  · rintro (h1 | ⟨p, h1, -⟩)
    · exact h1.2
    · have := h.new p k h1; omega
  · intro hx
    exact Or.inl ⟨hk, hx⟩

theorem Good.supp_new {vc : Nat} {cut : Sym2 Nat → Option Nat} (h : Good vc cut) {a b k x : Nat} (hk : cut s(a, b) = some k) :
    Supp vc cut k x ↔ x = a ∨ x = b := by
  constructor
  · rintro (h1 | ⟨p, h1, h2⟩)
    · have := h.new _ k hk; omega
    · rw [h.inj _ _ _ h1 hk] at h2
      exact Sym2.mem_iff.1 h2
  · intro hx
    exact Or.inr ⟨_, hk, Sym2.mem_iff.2 hx⟩

/-- The old vertices an edge stands for. -/
def SuppE (vc : Nat) (cut : Sym2 Nat → Option Nat) (p : Sym2 Nat) (x : Nat) : Prop := ∃ k ∈ p, Supp vc cut k x

theorem suppE_mk (vc : Nat) (cut : Sym2 Nat → Option Nat) (a b x : Nat) : SuppE vc cut s(a, b) x ↔ Supp vc cut a x ∨ Supp vc cut b x := by
  unfold SuppE
  constructor
  · rintro ⟨k, hk, h⟩
    rcases Sym2.mem_iff.1 hk with rfl | rfl
    · exact Or.inl h
    · exact Or.inr h
  · rintro (h | h)
    · exact ⟨a, Sym2.mem_mk_left a b, h⟩
    · exact ⟨b, Sym2.mem_mk_right a b, h⟩

theorem Good.supp_halves {vc : Nat} {cut : Sym2 Nat → Option Nat} (h : Good vc cut) {a b : Nat} (ha : a < vc) (hb : b < vc) {p : Sym2 Nat}
    (hp : p ∈ halves cut a b) (x : Nat) : SuppE vc cut p x ↔ x = a ∨ x = b := by
  unfold halves at hp
  cases hc : cut s(a, b) with
  | none =>
    rw [hc] at hp
    rw [List.mem_singleton.1 hp, suppE_mk, h.supp_old ha, h.supp_old hb]
  | some m =>
    rw [hc] at hp
    rcases List.mem_cons.1 hp with hp | hp
    · rw [hp, suppE_mk, h.supp_old ha, h.supp_new hc]
      tauto
    · rw [List.mem_singleton.1 hp, suppE_mk, h.supp_old hb, h.supp_new hc]
      tauto

theorem Good.supp_interior {vc : Nat} {cut : Sym2 Nat → Option Nat} (h : Good vc cut) {t : RefTriangle} (ht : t.Old vc) {p : Sym2 Nat}
    (hp : p ∈ interior cut t) (x : Nat) : SuppE vc cut p x ↔ x = t.a ∨ x = t.b ∨ x = t.c := by
  obtain ⟨ha, hb, hc, -⟩ := ht
  unfold interior at hp
  rcases h0 : cut s(t.a, t.b) with _ | m
  · rw [h0] at hp; cases hp
  · rcases h1 : cut s(t.a, t.c) with _ | n1 <;> rcases h2 : cut s(t.b, t.c) with _ | n2 <;> rw [h0, h1, h2] at hp <;>
      simp only [List.mem_cons, List.not_mem_nil, or_false] at hp <;> (try rcases hp with hp | hp | hp) <;> (try rcases hp with hp | hp) <;>
      (try subst hp) <;> rw [suppE_mk, h.supp_new h0] <;> (first | rw [h.supp_old hc] | rw [h.supp_new h1] | rw [h.supp_new h2]) <;> tauto

theorem Good.nodup_halves {vc : Nat} {cut : Sym2 Nat → Option Nat} (h : Good vc cut) {a b : Nat} (ha : a < vc) (hb : b < vc) (hab : a ≠ b) :
    (halves cut a b).Nodup := by
  unfold halves
  cases hc : cut s(a, b) with
  | none => simp
  | some m =>
    have := h.new _ _ hc
    simp only [List.nodup_cons, List.mem_singleton, Sym2.eq_iff, List.not_mem_nil, not_false_iff, List.nodup_nil, and_true]
    omega

theorem Good.nodup_interior {vc : Nat} {cut : Sym2 Nat → Option Nat} (h : Good vc cut) {t : RefTriangle} (ht : t.Old vc) :
    (interior cut t).Nodup := by
  obtain ⟨ha, hb, hc, hab, hac, hbc⟩ := ht
  unfold interior
  rcases h0 : cut s(t.a, t.b) with _ | m
  · exact List.nodup_nil
  · have := h.new _ _ h0
    rcases h1 : cut s(t.a, t.c) with _ | n1
    · rcases h2 : cut s(t.b, t.c) with _ | n2
      · simp
      · have := h.new _ _ h2
        simp only [List.nodup_cons, List.mem_cons, Sym2.eq_iff, List.not_mem_nil, not_false_iff, List.nodup_nil, and_true, or_false]
        omega
    · have := h.new _ _ h1
      rcases h2 : cut s(t.b, t.c) with _ | n2
      · simp only [List.nodup_cons, List.mem_cons, Sym2.eq_iff, List.not_mem_nil, not_false_iff, List.nodup_nil, and_true, or_false]
        omega
      · have := h.new _ _ h2
        have := h.ne h1 h2 (by rw [Ne, Sym2.eq_iff]; omega)
        simp only [List.nodup_cons, List.mem_cons, Sym2.eq_iff, List.not_mem_nil, not_false_iff, List.nodup_nil, and_true, or_false]
        omega

/-- Vertices of the triangles a triangle is split into. -/
theorem Good.kids_verts {vc : Nat} {cut : Sym2 Nat → Option Nat} (h : Good vc cut) {t : RefTriangle} (ht : t.Old vc) {k : RefTriangle}
    (hk : k ∈ kids cut t) : (k.a ≠ k.b ∧ k.a ≠ k.c ∧ k.b ≠ k.c) ∧
      (∀ x, (Supp vc cut k.a x ∨ Supp vc cut k.b x ∨ Supp vc cut k.c x) ↔ x = t.a ∨ x = t.b ∨ x = t.c) ∧
      (∀ x ∈ k.verts, x < vc ∨ ∃ p, cut p = some x) := by
  obtain ⟨a, b, c⟩ := t
  obtain ⟨ha, hb, hc, hab, hac, hbc⟩ := ht
  unfold kids at hk
  dsimp only at *
  rcases h0 : cut s(a, b) with _ | m
  · rw [h0] at hk
    rw [List.mem_singleton.1 hk]
    refine ⟨⟨hab, hac, hbc⟩, fun x => ?_, fun x hx => ?_⟩
    · rw [h.supp_old ha, h.supp_old hb, h.supp_old hc]
    · simp only [RefTriangle.verts, Finset.mem_insert, Finset.mem_singleton] at hx
      left; rcases hx with rfl | rfl | rfl <;> assumption
  · have hm := h.new _ _ h0
    rcases h1 : cut s(a, c) with _ | n1
    · rcases h2 : cut s(b, c) with _ | n2
      · rw [h0, h1, h2] at hk
        simp only [List.mem_cons, List.not_mem_nil, or_false] at hk
        rcases hk with rfl | rfl
        · refine ⟨⟨hac.symm, by dsimp only; omega, by dsimp only; omega⟩, fun x => ?_, fun x hx => ?_⟩
          · rw [h.supp_old hc, h.supp_old ha, h.supp_new h0]; tauto
          · simp only [RefTriangle.verts, Finset.mem_insert, Finset.mem_singleton] at hx
            rcases hx with rfl | rfl | rfl <;> first | exact Or.inl (by assumption) | exact Or.inr ⟨_, by assumption⟩
        · refine ⟨⟨hbc, by dsimp only; omega, by dsimp only; omega⟩, fun x => ?_, fun x hx => ?_⟩
          · rw [h.supp_old hc, h.supp_old hb, h.supp_new h0]; tauto
          · simp only [RefTriangle.verts, Finset.mem_insert, Finset.mem_singleton] at hx
            rcases hx with rfl | rfl | rfl <;> first | exact Or.inl (by assumption) | exact Or.inr ⟨_, by assumption⟩
      · have hn2 := h.new _ _ h2
        have hmn := h.ne h0 h2 (by rw [Ne, Sym2.eq_iff]; omega)
        rw [h0, h1, h2] at hk
        simp only [List.mem_cons, List.not_mem_nil, or_false] at hk
        rcases hk with rfl | rfl | rfl
        · refine ⟨⟨by dsimp only; omega, by dsimp only; omega, by dsimp only; omega⟩, fun x => ?_, fun x hx => ?_⟩
          · rw [h.supp_old hb, h.supp_new h2, h.supp_new h0]; tauto
          · simp only [RefTriangle.verts, Finset.mem_insert, Finset.mem_singleton] at hx
            rcases hx with rfl | rfl | rfl <;> first | exact Or.inl (by assumption) | exact Or.inr ⟨_, by assumption⟩
        · refine ⟨⟨by dsimp only; omega, by dsimp only; omega, by dsimp only; omega⟩, fun x => ?_, fun x hx => ?_⟩
          · rw [h.supp_old hc, h.supp_new h2, h.supp_new h0]; tauto
          · simp only [RefTriangle.verts, Finset.mem_insert, Finset.mem_singleton] at hx
            rcases hx with rfl | rfl | rfl <;> first | exact Or.inl (by assumption) | exact Or.inr ⟨_, by assumption⟩
        · refine ⟨⟨by dsimp only; omega, by dsimp only; omega, by dsimp only; omega⟩, fun x => ?_, fun x hx => ?_⟩
          · rw [h.supp_old hc, h.supp_old ha, h.supp_new h0]; tauto
          · simp only [RefTriangle.verts, Finset.mem_insert, Finset.mem_singleton] at hx
            rcases hx with rfl | rfl | rfl <;> first | exact Or.inl (by assumption) | exact Or.inr ⟨_, by assumption⟩
    · have hn1 := h.new _ _ h1
      have hmn := h.ne h0 h1 (by rw [Ne, Sym2.eq_iff]; omega)
      rcases h2 : cut s(b, c) with _ | n2
      · rw [h0, h1, h2] at hk
        simp only [List.mem_cons, List.not_mem_nil, or_false] at hk
        rcases hk with rfl | rfl | rfl
        · refine ⟨⟨by dsimp only; omega, by dsimp only; omega, by dsimp only; omega⟩, fun x => ?_, fun x hx => ?_⟩
          · rw [h.supp_old ha, h.supp_new h1, h.supp_new h0]; tauto
          · simp only [RefTriangle.verts, Finset.mem_insert, Finset.mem_singleton] at hx
            rcases hx with rfl | rfl | rfl <;> first | exact Or.inl (by assumption) | exact Or.inr ⟨_, by assumption⟩
        · refine ⟨⟨by dsimp only; omega, by dsimp only; omega, by dsimp only; omega⟩, fun x => ?_, fun x hx => ?_⟩
          · rw [h.supp_old hc, h.supp_new h1, h.supp_new h0]; tauto
          · simp only [RefTriangle.verts, Finset.mem_insert, Finset.mem_singleton] at hx
            rcases hx with rfl | rfl | rfl <;> first | exact Or.inl (by assumption) | exact Or.inr ⟨_, by assumption⟩
        · refine ⟨⟨by dsimp only; omega, by dsimp only; omega, by dsimp only; omega⟩, fun x => ?_, fun x hx => ?_⟩
          · rw [h.supp_old hc, h.supp_old hb, h.supp_new h0]; tauto
          · simp only [RefTriangle.verts, Finset.mem_insert, Finset.mem_singleton] at hx
            rcases hx with rfl | rfl | rfl <;> first | exact Or.inl (by assumption) | exact Or.inr ⟨_, by assumption⟩
      · have hn2 := h.new _ _ h2
        have hmn2 := h.ne h0 h2 (by rw [Ne, Sym2.eq_iff]; omega)
        rw [h0, h1, h2] at hk
        simp only [List.mem_cons, List.not_mem_nil, or_false] at hk
        rcases hk with rfl | rfl | rfl | rfl
        · refine ⟨⟨by dsimp only; omega, by dsimp only; omega, by dsimp only; omega⟩, fun x => ?_, fun x hx => ?_⟩
          · rw [h.supp_old ha, h.supp_new h1, h.supp_new h0]; tauto
          · simp only [RefTriangle.verts, Finset.mem_insert, Finset.mem_singleton] at hx
            rcases hx with rfl | rfl | rfl <;> first | exact Or.inl (by assumption) | exact Or.inr ⟨_, by assumption⟩
        · refine ⟨⟨by dsimp only; omega, by dsimp only; omega, by dsimp only; omega⟩, fun x => ?_, fun x hx => ?_⟩
          · rw [h.supp_old hc, h.supp_new h1, h.supp_new h0]; tauto
          · simp only [RefTriangle.verts, Finset.mem_insert, Finset.mem_singleton] at hx
            rcases hx with rfl | rfl | rfl <;> first | exact Or.inl (by assumption) | exact Or.inr ⟨_, by assumption⟩
        · refine ⟨⟨by dsimp only; omega, by dsimp only; omega, by dsimp only; omega⟩, fun x => ?_, fun x hx => ?_⟩
          · rw [h.supp_old hb, h.supp_new h2, h.supp_new h0]; tauto
          · simp only [RefTriangle.verts, Finset.mem_insert, Finset.mem_singleton] at hx
            rcases hx with rfl | rfl | rfl <;> first | exact Or.inl (by assumption) | exact Or.inr ⟨_, by assumption⟩
        · refine ⟨⟨by dsimp only; omega, by dsimp only; omega, by dsimp only; omega⟩, fun x => ?_, fun x hx => ?_⟩
          · rw [h.supp_old hc, h.supp_new h2, h.supp_new h0]; tauto
          · simp only [RefTriangle.verts, Finset.mem_insert, Finset.mem_singleton] at hx
            rcases hx with rfl | rfl | rfl <;> first | exact Or.inl (by assumption) | exact Or.inr ⟨_, by assumption⟩

theorem verts_ne {t u : RefTriangle} (x : Nat) (h : ¬ ((x = t.a ∨ x = t.b ∨ x = t.c) ↔ (x = u.a ∨ x = u.b ∨ x = u.c))) : t.verts ≠ u.verts := by
  intro hh
  apply h
  have := Finset.ext_iff.1 hh x
  simpa only [RefTriangle.verts, Finset.mem_insert, Finset.mem_singleton] using this

theorem Good.kids_pairwise {vc : Nat} {cut : Sym2 Nat → Option Nat} (h : Good vc cut) {t : RefTriangle} (ht : t.Old vc) :
    (kids cut t).Pairwise fun k l => k.verts ≠ l.verts := by
  obtain ⟨a, b, c⟩ := t
  obtain ⟨ha, hb, hc, hab, hac, hbc⟩ := ht
  unfold kids
  dsimp only at *
  rcases h0 : cut s(a, b) with _ | m
  · simp
  · have hm := h.new _ _ h0
    rcases h1 : cut s(a, c) with _ | n1
    · rcases h2 : cut s(b, c) with _ | n2
      · refine List.pairwise_pair.2 (verts_ne a ?_)
        dsimp only; omega
      · have hn2 := h.new _ _ h2
        have hmn := h.ne h0 h2 (by rw [Ne, Sym2.eq_iff]; omega)
        simp only [List.pairwise_cons, List.mem_cons, List.not_mem_nil, or_false, forall_eq_or_imp, forall_eq, false_imp_iff, implies_true,
          List.Pairwise.nil, and_true]
        refine ⟨⟨verts_ne b ?_, verts_ne b ?_⟩, verts_ne n2 ?_⟩ <;> dsimp only <;> omega
    · have hn1 := h.new _ _ h1
      have hmn := h.ne h0 h1 (by rw [Ne, Sym2.eq_iff]; omega)
      rcases h2 : cut s(b, c) with _ | n2
      · simp only [List.pairwise_cons, List.mem_cons, List.not_mem_nil, or_false, forall_eq_or_imp, forall_eq, false_imp_iff, implies_true,
          List.Pairwise.nil, and_true]
        refine ⟨⟨verts_ne a ?_, verts_ne a ?_⟩, verts_ne n1 ?_⟩ <;> dsimp only <;> omega
      · have hn2 := h.new _ _ h2
        have hmn2 := h.ne h0 h2 (by rw [Ne, Sym2.eq_iff]; omega)
        have hnn := h.ne h1 h2 (by rw [Ne, Sym2.eq_iff]; omega)
        simp only [List.pairwise_cons, List.mem_cons, List.not_mem_nil, or_false, forall_eq_or_imp, forall_eq, false_imp_iff, implies_true,
          List.Pairwise.nil, and_true]
        refine ⟨⟨verts_ne a ?_, verts_ne a ?_, verts_ne a ?_⟩, ⟨verts_ne c ?_, verts_ne n1 ?_⟩, verts_ne b ?_⟩ <;> dsimp only <;> omega

end
end Verif.Refine
