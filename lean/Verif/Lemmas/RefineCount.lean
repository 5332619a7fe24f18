import Verif.Lemmas.RefineSplit
/-
Edges of the refined grid.
-/
namespace Verif.Refine
open Verif.Grid
noncomputable section

/-- A list of triangles with three different old vertices each and different vertex sets, reference edges cut first. -/
structure Fine (vc : Nat) (cut : Sym2 Nat → Option Nat) (T : List RefTriangle) : Prop where
  good : Good vc cut
  old : ∀ t ∈ T, t.Old vc
  closed : ∀ t ∈ T, Closed cut t
  pairwise : T.Pairwise fun t u => t.verts ≠ u.verts

theorem halves_swap (cut : Sym2 Nat → Option Nat) (a b : Nat) (p : Sym2 Nat) : p ∈ halves cut a b ↔ p ∈ halves cut b a := by
  unfold halves
  rw [Sym2.eq_swap (a := b)]
  cases cut s(a, b) with
  | none => rfl
  | some m => simp only [List.mem_cons, List.not_mem_nil, or_false]; tauto

/-- `p` is the edge `q` or one of its halves. -/
def HalfOf (cut : Sym2 Nat → Option Nat) (p q : Sym2 Nat) : Prop := ∃ a b, q = s(a, b) ∧ p ∈ halves cut a b

theorem halfOf_mk {cut : Sym2 Nat → Option Nat} {p : Sym2 Nat} {a b : Nat} : HalfOf cut p s(a, b) ↔ p ∈ halves cut a b := by
  constructor
  · rintro ⟨c, d, h, hp⟩
    rcases Sym2.eq_iff.1 h with ⟨rfl, rfl⟩ | ⟨rfl, rfl⟩
    · exact hp
    · exact (halves_swap _ _ _ _).1 hp
  · intro h
    exact ⟨a, b, rfl, h⟩

theorem Good.count_halves {vc : Nat} {cut : Sym2 Nat → Option Nat} (h : Good vc cut) {a b c d : Nat} (ha : a < vc) (hb : b < vc) (hc : c < vc)
    (hd : d < vc) (hab : a ≠ b) {p : Sym2 Nat} (hp : p ∈ halves cut c d) :
    (halves cut a b).count p = if s(a, b) = s(c, d) then 1 else 0 := by
  split
  · rename_i he
    have : p ∈ halves cut a b := halfOf_mk.1 (he ▸ halfOf_mk.2 hp)
    exact List.count_eq_one_of_mem (h.nodup_halves ha hb hab) this
  · rename_i hne
    apply List.count_eq_zero_of_not_mem
    intro hp'
    apply hne
    have h1 := fun x => (h.supp_halves ha hb hp' x).symm.trans (h.supp_halves hc hd hp x)
    have h2 := h1 a
    have h3 := h1 b
    rw [Sym2.eq_iff]
    omega

theorem count_flatMap_edges (T : List RefTriangle) (q : Sym2 Nat) : (T.flatMap RefTriangle.edges).count q =
    (T.map fun t => (if s(t.a, t.b) = q then 1 else 0) + (if s(t.a, t.c) = q then 1 else 0) + (if s(t.b, t.c) = q then 1 else 0)).sum := by
  rw [List.count_flatMap]
  congr 1
  apply List.map_congr_left
  intro t _
  simp only [Function.comp, RefTriangle.edges, List.count_cons, List.count_nil, beq_iff_eq]
  ring

theorem count_refined {vc : Nat} {cut : Sym2 Nat → Option Nat} {T : List RefTriangle} (h : Fine vc cut T) (p : Sym2 Nat) :
    ((T.flatMap (kids cut)).flatMap RefTriangle.edges).count p = (T.map fun t => (halves cut t.a t.b).count p + (halves cut t.a t.c).count p +
      (halves cut t.b t.c).count p + 2 * (interior cut t).count p).sum := by
  rw [List.flatMap_assoc, List.count_flatMap]
  congr 1
  apply List.map_congr_left
  intro t ht
  exact count_kids cut t (h.closed t ht) p

theorem Fine.interior_unique {vc : Nat} {cut : Sym2 Nat → Option Nat} {T : List RefTriangle} (h : Fine vc cut T) {t u : RefTriangle} (ht : t ∈ T)
    (hu : u ∈ T) {p : Sym2 Nat} (hp : p ∈ interior cut t) (hp' : p ∈ interior cut u) : t = u := by
  by_contra hne
  have h1 := fun x => (h.good.supp_interior (h.old t ht) hp x).symm.trans (h.good.supp_interior (h.old u hu) hp' x)
  have hv : t.verts = u.verts := by
    ext x
    simpa only [RefTriangle.verts, Finset.mem_insert, Finset.mem_singleton] using h1 x
  obtain ⟨i, hi, rfl⟩ := List.mem_iff_getElem.1 ht
  obtain ⟨j, hj, rfl⟩ := List.mem_iff_getElem.1 hu
  have hpw := List.pairwise_iff_getElem.1 h.pairwise
  rcases Nat.lt_trichotomy i j with hij | hij | hij
  · exact hpw i j hi hj hij hv
  · subst hij; exact hne rfl
  · exact hpw j i hj hi hij hv.symm

theorem Fine.interior_halves {vc : Nat} {cut : Sym2 Nat → Option Nat} {T : List RefTriangle} (h : Fine vc cut T) {t : RefTriangle} (ht : t ∈ T)
    {a b : Nat} (ha : a < vc) (hb : b < vc) {p : Sym2 Nat} (hp : p ∈ interior cut t) (hp' : p ∈ halves cut a b) : False := by
  obtain ⟨-, -, -, hab, hac, hbc⟩ := h.old t ht
  have h1 := fun x => (h.good.supp_interior (h.old t ht) hp x).symm.trans (h.good.supp_halves ha hb hp' x)
  have ha := (h1 t.a).1 (Or.inl rfl)
  have hb := (h1 t.b).1 (Or.inr (Or.inl rfl))
  have hc := (h1 t.c).1 (Or.inr (Or.inr rfl))
  omega

theorem Fine.nodup {vc : Nat} {cut : Sym2 Nat → Option Nat} {T : List RefTriangle} (h : Fine vc cut T) : T.Nodup :=
  h.pairwise.imp fun {a b} hh (he : a = b) => hh (by rw [he])

/-- Edges of the refined grid are halves of edges, edges or inside a triangle. -/
theorem Fine.count {vc : Nat} {cut : Sym2 Nat → Option Nat} {T : List RefTriangle} (h : Fine vc cut T) (p : Sym2 Nat) :
    (((T.flatMap (kids cut)).flatMap RefTriangle.edges).count p = 0) ∨
    (((T.flatMap (kids cut)).flatMap RefTriangle.edges).count p = 2 ∧ ∃ t ∈ T, ∀ x, SuppE vc cut p x ↔ x = t.a ∨ x = t.b ∨ x = t.c) ∨
    (∃ t ∈ T, ∃ q ∈ t.edges, HalfOf cut p q ∧ ((T.flatMap (kids cut)).flatMap RefTriangle.edges).count p = (T.flatMap RefTriangle.edges).count q) := by
  rw [count_refined h]
  by_cases hi : ∃ t ∈ T, p ∈ interior cut t
  · obtain ⟨t, ht, hp⟩ := hi
    right; left
    refine ⟨?_, t, ht, h.good.supp_interior (h.old t ht) hp⟩
    have hz : ∀ u ∈ T, (halves cut u.a u.b).count p = 0 ∧ (halves cut u.a u.c).count p = 0 ∧ (halves cut u.b u.c).count p = 0 := by
      intro u hu
      obtain ⟨h1, h2, h3, -⟩ := h.old u hu
      exact ⟨List.count_eq_zero_of_not_mem fun hh => h.interior_halves ht h1 h2 hp hh,
        List.count_eq_zero_of_not_mem fun hh => h.interior_halves ht h1 h3 hp hh,
        List.count_eq_zero_of_not_mem fun hh => h.interior_halves ht h2 h3 hp hh⟩
    rw [List.sum_map_eq_nsmul_single t]
    · obtain ⟨h1, h2, h3⟩ := hz t ht
      rw [h1, h2, h3, List.count_eq_one_of_mem h.nodup ht, List.count_eq_one_of_mem (h.good.nodup_interior (h.old t ht)) hp]
      rfl
    · intro u hne hu
      obtain ⟨h1, h2, h3⟩ := hz u hu
      rw [h1, h2, h3, List.count_eq_zero_of_not_mem fun hh => hne (h.interior_unique hu ht hh hp)]
      rfl
  · by_cases hh : ∃ t ∈ T, ∃ q ∈ t.edges, HalfOf cut p q
    · obtain ⟨t, ht, q, hq, hp⟩ := hh
      right; right
      refine ⟨t, ht, q, hq, hp, ?_⟩
      obtain ⟨c, d, rfl, hp⟩ := hp
      have hcd : c < vc ∧ d < vc := by
        obtain ⟨h1, h2, h3, -⟩ := h.old t ht
        simp only [RefTriangle.edges, List.mem_cons, List.not_mem_nil, or_false, Sym2.eq_iff] at hq
        omega
      rw [count_flatMap_edges]
      congr 1
      apply List.map_congr_left
      intro u hu
      obtain ⟨h1, h2, h3, h4, h5, h6⟩ := h.old u hu
      rw [h.good.count_halves h1 h2 hcd.1 hcd.2 h4 hp, h.good.count_halves h1 h3 hcd.1 hcd.2 h5 hp,
        h.good.count_halves h2 h3 hcd.1 hcd.2 h6 hp, List.count_eq_zero_of_not_mem fun hh => hi ⟨u, hu, hh⟩]
      rfl
    · left
      rw [List.sum_eq_zero]
      intro x hx
      obtain ⟨u, hu, rfl⟩ := List.mem_map.1 hx
      have hn : ∀ a b, s(a, b) ∈ u.edges → (halves cut a b).count p = 0 := fun a b hab =>
        List.count_eq_zero_of_not_mem fun hp => hh ⟨u, hu, _, hab, a, b, rfl, hp⟩
      rw [hn u.a u.b (by simp [RefTriangle.edges]), hn u.a u.c (by simp [RefTriangle.edges]), hn u.b u.c (by simp [RefTriangle.edges]),
        List.count_eq_zero_of_not_mem fun hh => hi ⟨u, hu, hh⟩]
      rfl

/-- A cut edge is no edge of the refined grid. -/
theorem Fine.cut_gone {vc : Nat} {cut : Sym2 Nat → Option Nat} {T : List RefTriangle} (h : Fine vc cut T) {p : Sym2 Nat} {k : Nat}
    (hk : cut p = some k) : ((T.flatMap (kids cut)).flatMap RefTriangle.edges).count p = 0 := by
  induction p using Sym2.ind with
  | _ x y =>
    obtain ⟨hx, hy⟩ := h.good.old x y k hk
    rcases h.count s(x, y) with h0 | ⟨-, t, ht, hs⟩ | ⟨t, ht, q, hq, ⟨a, b, rfl, hp⟩, -⟩
    · exact h0
    · exfalso
      obtain ⟨-, -, -, hab, hac, hbc⟩ := h.old t ht
      have h1 := fun z => (hs z).symm.trans ((suppE_mk vc cut x y z).trans (or_congr (h.good.supp_old hx) (h.good.supp_old hy)))
      have ha := (h1 t.a).1 (Or.inl rfl)
      have hb := (h1 t.b).1 (Or.inr (Or.inl rfl))
      have hc := (h1 t.c).1 (Or.inr (Or.inr rfl))
      omega
    · exfalso
      unfold halves at hp
      cases hc : cut s(a, b) with
      | none =>
        rw [hc] at hp
        rw [List.mem_singleton.1 hp, hc] at hk
        cases hk
      | some m =>
        rw [hc] at hp
        have hm := h.good.new _ _ hc
        simp only [List.mem_cons, List.not_mem_nil, or_false, Sym2.eq_iff] at hp
        omega

theorem Fine.refined_pairwise {vc : Nat} {cut : Sym2 Nat → Option Nat} {T : List RefTriangle} (h : Fine vc cut T) :
    (T.flatMap (kids cut)).Pairwise fun t u => t.verts ≠ u.verts := by
  rw [List.pairwise_flatMap]
  refine ⟨fun t ht => h.good.kids_pairwise (h.old t ht), ?_⟩
  refine h.pairwise.imp_of_mem ?_
  intro t u ht hu hne k hk l hl he
  apply hne
  ext x
  simp only [RefTriangle.verts, Finset.mem_insert, Finset.mem_singleton]
  rw [← (h.good.kids_verts (h.old t ht) hk).2.1 x, ← (h.good.kids_verts (h.old u hu) hl).2.1 x]
  have hx := fun y => Finset.ext_iff.1 he y
  simp only [RefTriangle.verts, Finset.mem_insert, Finset.mem_singleton] at hx
  have key : ∀ w : RefTriangle, (Supp vc cut w.a x ∨ Supp vc cut w.b x ∨ Supp vc cut w.c x) ↔
      ∃ y, (y = w.a ∨ y = w.b ∨ y = w.c) ∧ Supp vc cut y x := by
    intro w
    constructor
    · rintro (h | h | h)
      · exact ⟨_, Or.inl rfl, h⟩
      · exact ⟨_, Or.inr (Or.inl rfl), h⟩
      · exact ⟨_, Or.inr (Or.inr rfl), h⟩
    · rintro ⟨y, rfl | rfl | rfl, h⟩ <;> tauto
  rw [key k, key l]
  simp only [hx]

/-- The number of elements with an edge, for lists of triangles. -/
theorem countP_edges {T : List RefTriangle} (h : ∀ t ∈ T, t.a ≠ t.b ∧ t.a ≠ t.c ∧ t.b ≠ t.c) (p : Sym2 Nat) :
    (T.countP fun t => decide (p ∈ t.edges)) = (T.flatMap RefTriangle.edges).count p := by
  induction T with
  | nil => rfl
  | cons t T ih =>
    rw [List.flatMap_cons, List.count_append, List.countP_cons, ih fun t ht => h t (List.mem_cons_of_mem _ ht), Nat.add_comm]
    congr 1
    obtain ⟨h1, h2, h3⟩ := h t List.mem_cons_self
    have hnd : t.edges.Nodup := by
      simp only [RefTriangle.edges, List.nodup_cons, List.mem_cons, Sym2.eq_iff, List.not_mem_nil, not_false_iff, List.nodup_nil, and_true, or_false]
      omega
    by_cases hp : p ∈ t.edges
    · rw [if_pos (decide_eq_true hp), List.count_eq_one_of_mem hnd hp]
    · rw [if_neg (by simpa using hp), List.count_eq_zero_of_not_mem hp]

theorem mem_edges_refTriangle (x y z r : Nat) (p : Sym2 Nat) :
    p ∈ (refTriangle x y z r).edges ↔ p = s(x, y) ∨ p = s(x, z) ∨ p = s(y, z) := by
  unfold refTriangle RefTriangle.edges
  split
  · simp only [List.mem_cons, List.not_mem_nil, or_false]
  · split
    · simp only [List.mem_cons, List.not_mem_nil, or_false]
      rw [Sym2.eq_swap (a := z) (b := x), Sym2.eq_swap (a := z) (b := y)]
      tauto
    · simp only [List.mem_cons, List.not_mem_nil, or_false]
      rw [Sym2.eq_swap (a := z) (b := x), Sym2.eq_swap (a := y) (b := x)]
      tauto

theorem verts_refTriangle (x y z r : Nat) : (refTriangle x y z r).verts = {x, y, z} := by
  unfold refTriangle RefTriangle.verts
  ext w
  split
  · rfl
  · split <;> simp only [Finset.mem_insert, Finset.mem_singleton] <;> tauto

theorem ne_refTriangle (x y z r : Nat) : ((refTriangle x y z r).a ≠ (refTriangle x y z r).b ∧ (refTriangle x y z r).a ≠ (refTriangle x y z r).c ∧
    (refTriangle x y z r).b ≠ (refTriangle x y z r).c) ↔ (x ≠ y ∧ x ≠ z ∧ y ≠ z) := by
  unfold refTriangle
  split
  · rfl
  · split <;> dsimp only <;> omega

theorem View.edgeCount_eq (v : View) (h : ∀ e < v.elementCount, v.corner e 0 ≠ v.corner e 1 ∧ v.corner e 0 ≠ v.corner e 2 ∧ v.corner e 1 ≠ v.corner e 2)
    (p : Sym2 Nat) : v.edgeCount p = (((List.range v.elementCount).map v.triangle).flatMap RefTriangle.edges).count p := by
  rw [← countP_edges, List.countP_map]
  · unfold View.edgeCount
    apply List.countP_congr
    intro e _
    simp only [Function.comp, View.triangle, decide_eq_true_eq, mem_edges_refTriangle]
    rfl
  · intro t ht
    obtain ⟨e, he, rfl⟩ := List.mem_map.1 ht
    exact (ne_refTriangle _ _ _ _).2 (h e (List.mem_range.1 he))

end
end Verif.Refine
