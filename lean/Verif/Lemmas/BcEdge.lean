import Verif.Lemmas.BcHalf
import Verif.Lemmas.Barycentric
/-
The function of one edge, and the whole space.
-/
namespace Verif.Space
open Verif.Grid

variable {K : Type}

/-- An edge of two triangles. -/
def InnerEdge (g : GridData K) (f : Nat) : Prop :=
  ∃ x < 3 * g.data.elements.length, ∃ y < 3 * g.data.elements.length, x ≠ y ∧ outEdge g x = f ∧ outEdge g y = f

open Classical in
/-- What the coefficients (with their weights) of the function of an edge satisfy; the edge leads from corner `x0` to the next one in the
triangle with the lowest number, and from corner `x1` in the other one. -/
structure NetCols {L : Type} [Field L] (g : GridData K) (x0 x1 : Nat) (net : Nat → Nat → L) : Prop where
  support : ∀ F < 6 * g.data.elements.length, cornerAt g (F / 2) ≠ cornerAt g x0 → cornerAt g (F / 2) ≠ cornerAt g x1 → ∀ s, net F s = 0
  touch : ∀ F s F' s', Touch g F s F' s' → net F s + net F' s' = 0
  mid : ∀ x < 3 * g.data.elements.length, net (2 * x + 1) 2 = if x = x1 then (1 / 2 : L) else if x = x0 then -(1 / 2) else 0
  div : ∀ F < 6 * g.data.elements.length, net F 0 + net F 1 + net F 2 =
    if BoundaryVertex g (cornerAt g (F / 2)) then (0 : L) else
      if cornerAt g (F / 2) = cornerAt g x1 then 1 / (2 * (valence g (cornerAt g (F / 2)) : L)) else
        if cornerAt g (F / 2) = cornerAt g x0 then -(1 / (2 * (valence g (cornerAt g (F / 2)) : L))) else 0
  half0 : net (2 * nextCorner x0) 1 = if BoundaryVertex g (cornerAt g x1) then
    ((valence g (cornerAt g x1) : L) - 2) / (2 * (valence g (cornerAt g x1) : L)) else 0
  half1 : net (2 * nextCorner x1) 1 = if BoundaryVertex g (cornerAt g x0) then
    -(((valence g (cornerAt g x0) : L) - 2) / (2 * (valence g (cornerAt g x0) : L))) else 0

section
variable (g : GridData K) (hg : g.Valid) (hs : OrientedSurface g)
include hg hs

theorem boundary_open {v : Nat} {l : List Nat} (hv : v < g.data.nnodes) (hl : Fan g v l) (hne : l ≠ []) (hco : FanClosed g l ∨ FanOpen g l) :
    BoundaryVertex g v ↔ FanOpen g l := by
  rw [← fan_open_iff g hg hs hv hl hne hco]
  unfold BoundaryVertex
  refine exists_congr fun x => and_congr_right fun hx => ?_
  rw [and_comm]
  refine and_congr_left' (forall_congr' fun y => forall_congr' fun hy => ?_)
  rw [outEdge_eq_iff g hg y x hy hx, Sym2.eq_iff]

theorem edge_spec {L : Type} [Field L] [CharZero L] (T : BcTables) (hT : GoodTables g T) (x0 x1 : Nat) (h0 : x0 < 3 * g.data.elements.length)
    (h1 : x1 < 3 * g.data.elements.length) (hne : x0 ≠ x1) (he : outEdge g x0 = outEdge g x1)
    (hf0 : T.face0[outEdge g x0]? = some (some (2 * nextCorner x0))) (hf1 : T.face1[outEdge g x0]? = some (some (2 * nextCorner x1)))
    (hv0 : T.vertex0[outEdge g x0]? = some (some (cornerAt g (nextCorner x0)))) (hv1 : T.vertex1[outEdge g x0]? = some (some (cornerAt g x0)))
    (checked : Bool) (dof : Nat) :
    ∃ (P : List (Push L)) (net : Nat → Nat → L), NetCols g x0 x1 net ∧
      (∀ st, bcEdge T checked (outEdge g x0) (dof : Int) st = .ok (pushAll P st)) ∧
      (∀ p ∈ P, p.dof = dof ∧ p.face < 6 * g.data.elements.length) ∧
      ∀ F < 6 * g.data.elements.length,
        ((cornerAt g (F / 2) = cornerAt g x0 ∨ cornerAt g (F / 2) = cornerAt g x1) →
          ∃ p, ofFace P F = [p] ∧ ∀ s, p.w * p.col.get s = net F s) ∧
        (cornerAt g (F / 2) ≠ cornerAt g x0 → cornerAt g (F / 2) ≠ cornerAt g x1 → ofFace P F = []) := by
  classical
  obtain ⟨o1, o2⟩ := opposite g hg hs x0 x1 h0 h1 he hne
  have hnx0 := next_lt h0
  have hnx1 := next_lt h1
  obtain ⟨l0, hl0, hco0, hm0⟩ := fan_of g hg hs (nextCorner x0) hnx0
  obtain ⟨l1, hl1, hco1, hm1⟩ := fan_of g hg hs (nextCorner x1) hnx1
  obtain ⟨A, ca, hAnd, hA, hAok, hAc⟩ := half_spec (L := L) g hg T hT l0 (nextCorner x0) x1 hnx0 hl0 hco0 h1 o2.symm
    (by rw [prev_next]; exact o1) checked
  obtain ⟨B, cb, hBnd, hB, hBok, hBc⟩ := half_spec (L := L) g hg T hT l1 (nextCorner x1) x0 hnx1 hl1 hco1 h0 o1
    (by rw [prev_next]; exact o2.symm) checked
  have hb0 := boundary_open g hg hs (corner_lt g hg _ hnx0) hl0 (List.ne_nil_of_mem hm0) hco0
  have hb1 := boundary_open g hg hs (corner_lt g hg _ hnx1) hl1 (List.ne_nil_of_mem hm1) hco1
  have hvne : cornerAt g x0 ≠ cornerAt g x1 := by
    rw [← o2]; exact (corner_next_ne g hg x0 h0).symm
  have hAl : ∀ F, F < 6 * g.data.elements.length → (F ∈ A ↔ cornerAt g (F / 2) = cornerAt g x1) := by
    intro F hF; rw [hA, o2]; exact and_iff_right hF
  have hBl : ∀ F, F < 6 * g.data.elements.length → (F ∈ B ↔ cornerAt g (F / 2) = cornerAt g x0) := by
    intro F hF; rw [hB, ← o1]; exact and_iff_right hF
  -- single columns of a half
  have hone : ∀ (C : List Nat) (c : Nat → Col L) (w : L) (F : Nat), C.Nodup →
      ofFace (C.map fun F => (⟨F, c F, dof, w⟩ : Push L)) F = if F ∈ C then [⟨F, c F, dof, w⟩] else [] := by
    intro C c w F hC
    unfold ofFace
    rw [List.filter_map]
    have : C.filter ((fun p : Push L => decide (p.face = F)) ∘ fun F => (⟨F, c F, dof, w⟩ : Push L)) = if F ∈ C then [F] else [] := by
      have e : ((fun p : Push L => decide (p.face = F)) ∘ fun F => (⟨F, c F, dof, w⟩ : Push L)) = fun G => decide (G = F) := rfl
      rw [e]
      clear e
      induction C with
      | nil => rfl
      | cons G C ih =>
        obtain ⟨hG, hC⟩ := List.nodup_cons.mp hC
        rw [List.filter_cons, ih hC]
        by_cases h : G = F
        · subst h
          simp [hG]
        · simp [h, Ne.symm h]
    rw [this]
    split_ifs <;> rfl
  let net : Nat → Nat → L := fun F s =>
    if cornerAt g (F / 2) = cornerAt g x1 then (ca F).get s else if cornerAt g (F / 2) = cornerAt g x0 then -(cb F).get s else 0
  have netA : ∀ F s, cornerAt g (F / 2) = cornerAt g x1 → net F s = (ca F).get s := fun F s h => if_pos h
  have netB : ∀ F s, cornerAt g (F / 2) = cornerAt g x0 → net F s = -(cb F).get s := fun F s h => by
    show (if _ then _ else _) = _
    rw [if_neg (by rw [h]; exact hvne), if_pos h]
  have netO : ∀ F s, cornerAt g (F / 2) ≠ cornerAt g x0 → cornerAt g (F / 2) ≠ cornerAt g x1 → net F s = 0 := fun F s h h' => by
    show (if _ then _ else _) = _
    rw [if_neg h', if_neg h]
  have d2 : ∀ x, (2 * x + 1) / 2 = x := fun x => by omega
  have d1 : ∀ x, 2 * x / 2 = x := fun x => by omega
  have oddmid : ∀ x < 3 * g.data.elements.length, net (2 * x + 1) 2 = if x = x1 then (1 / 2 : L) else if x = x0 then -(1 / 2) else 0 := by
    intro x hx
    by_cases ha : cornerAt g x = cornerAt g x1
    · rw [netA _ _ (by rw [d2]; exact ha)]
      show (ca (2 * x + 1)).c2 = _
      rw [hAc.rim_odd x hx (ha.trans o2.symm), prev_next]
      by_cases h : x = x1
      · rw [if_pos h, if_pos (by rw [h]; exact o1)]
      · rw [if_neg h, if_neg (fun h' => h (dir_inj g hg hs x x1 hx h1 ha (h'.symm.trans o1))), if_neg (fun h' => hvne (by rw [← ha, h']))]
    · by_cases hb : cornerAt g x = cornerAt g x0
      · rw [netB _ _ (by rw [d2]; exact hb)]
        show -(cb (2 * x + 1)).c2 = _
        rw [hBc.rim_odd x hx (hb.trans o1), prev_next, if_neg (show ¬ x = x1 from fun h => ha (by rw [h]))]
        by_cases h : x = x0
        · rw [if_pos h, if_pos (by rw [h]; exact o2.symm)]
        · rw [if_neg h, if_neg (fun h' => h (dir_inj g hg hs x x0 hx h0 hb (h'.symm.trans o2.symm))), neg_zero]
      · rw [netO _ _ (by rw [d2]; exact hb) (by rw [d2]; exact ha), if_neg (fun h => ha (by rw [h])), if_neg (fun h => hb (by rw [h]))]
  have evenmid : ∀ x < 3 * g.data.elements.length, net (2 * nextCorner x) 2 = if x = x1 then (-(1 / 2) : L) else if x = x0 then 1 / 2 else 0 := by
    intro x hx
    have hnx := next_lt hx
    have hinj : ∀ y, nextCorner x = nextCorner y ↔ x = y := fun y =>
      ⟨fun h => by rw [← prev_next x, h, prev_next], fun h => by rw [h]⟩
    by_cases ha : cornerAt g (nextCorner x) = cornerAt g x1
    · rw [netA _ _ (by rw [d1]; exact ha)]
      show (ca (2 * nextCorner x)).c2 = _
      rw [hAc.rim_even _ hnx (ha.trans o2.symm)]
      have hx1 : x ≠ x1 := fun h => corner_next_ne g hg x1 h1 (by rw [h] at ha; exact ha)
      by_cases h : x = x0
      · rw [if_neg hx1, if_pos h, if_pos ((hinj _).mpr h)]
      · rw [if_neg hx1, if_neg h, if_neg (by rw [hinj]; exact h)]
    · by_cases hb : cornerAt g (nextCorner x) = cornerAt g x0
      · rw [netB _ _ (by rw [d1]; exact hb)]
        show -(cb (2 * nextCorner x)).c2 = _
        rw [hBc.rim_even _ hnx (hb.trans o1)]
        have hx0 : x ≠ x0 := fun h => corner_next_ne g hg x0 h0 (by rw [h] at hb; exact hb)
        by_cases h : x = x1
        · rw [if_pos h, if_pos ((hinj _).mpr h)]
        · rw [if_neg h, if_neg (by rw [hinj]; exact h), if_neg hx0, neg_zero]
      · rw [netO _ _ (by rw [d1]; exact hb) (by rw [d1]; exact ha), if_neg (fun h => hb (by rw [h]; exact o1.symm)),
          if_neg (fun h => ha (by rw [h]; exact o2))]
  refine ⟨(A.map fun F => ⟨F, ca F, dof, 1⟩) ++ (B.map fun F => ⟨F, cb F, dof, -1⟩), net, ⟨?_, ?_, oddmid, ?_, ?_, ?_⟩, ?_, ?_, ?_⟩
  · intro F _ ha hb s; exact netO F s ha hb
  · intro F s F' s' ht
    rcases ht.inv with ⟨rfl, rfl, x, hx, rfl, rfl⟩ | ⟨rfl, rfl, x, hx, y, hy, rfl, rfl, hxy, hxy'⟩ | ⟨rfl, rfl, x, hx, rfl, rfl⟩
    · by_cases ha : cornerAt g x = cornerAt g x1
      · rw [netA _ _ (by rw [d2]; exact ha), netA _ _ (by rw [d1]; exact ha)]
        exact hAc.inner x hx (ha.trans o2.symm)
      · by_cases hb : cornerAt g x = cornerAt g x0
        · rw [netB _ _ (by rw [d2]; exact hb), netB _ _ (by rw [d1]; exact hb)]
          have : (cb (2 * x + 1)).get 1 + (cb (2 * x)).get 0 = 0 := hBc.inner x hx (hb.trans o1)
          linear_combination -this
        · rw [netO _ _ (by rw [d2]; exact hb) (by rw [d2]; exact ha), netO _ _ (by rw [d1]; exact hb) (by rw [d1]; exact ha), add_zero]
    · by_cases ha : cornerAt g x = cornerAt g x1
      · have ha' := hxy.symm.trans ha
        rw [netA _ _ (by rw [d1]; exact ha), netA _ _ (by rw [d2]; exact ha')]
        exact hAc.across x hx y hy (ha.trans o2.symm) (ha'.trans o2.symm) hxy'
      · have ha' : cornerAt g y ≠ cornerAt g x1 := by rw [← hxy]; exact ha
        by_cases hb : cornerAt g x = cornerAt g x0
        · have hb' := hxy.symm.trans hb
          rw [netB _ _ (by rw [d1]; exact hb), netB _ _ (by rw [d2]; exact hb')]
          have : (cb (2 * x)).get 1 + (cb (2 * y + 1)).get 0 = 0 := hBc.across x hx y hy (hb.trans o1) (hb'.trans o1) hxy'
          linear_combination -this
        · have hb' : cornerAt g y ≠ cornerAt g x0 := by rw [← hxy]; exact hb
          rw [netO _ _ (by rw [d1]; exact hb) (by rw [d1]; exact ha), netO _ _ (by rw [d2]; exact hb') (by rw [d2]; exact ha'), add_zero]
    · rw [oddmid x hx, evenmid x hx]
      split_ifs <;> ring
  · intro F hF
    by_cases ha : cornerAt g (F / 2) = cornerAt g x1
    · rw [netA _ _ ha, netA _ _ ha, netA _ _ ha, if_pos ha, ha, ← o2]
      have := hAc.div F hF (ha.trans o2.symm)
      show (ca F).c0 + (ca F).c1 + (ca F).c2 = _
      rw [this]
      by_cases h : FanOpen g l0
      · rw [if_pos h, if_pos (hb0.mpr h)]
      · rw [if_neg h, if_neg (by rw [hb0]; exact h)]
    · by_cases hb : cornerAt g (F / 2) = cornerAt g x0
      · rw [netB _ _ hb, netB _ _ hb, netB _ _ hb, if_neg ha, if_pos hb, hb, o1]
        have := hBc.div F hF (hb.trans o1)
        show -(cb F).c0 + -(cb F).c1 + -(cb F).c2 = _
        rw [show -(cb F).c0 + -(cb F).c1 + -(cb F).c2 = -((cb F).c0 + (cb F).c1 + (cb F).c2) by ring, this]
        by_cases h : FanOpen g l1
        · rw [if_pos h, if_pos (hb1.mpr h), neg_zero]
        · rw [if_neg h, if_neg (by rw [hb1]; exact h)]
      · rw [netO _ _ hb ha, netO _ _ hb ha, netO _ _ hb ha, if_neg ha, if_neg hb]
        simp
  · rw [netA _ _ (by rw [d1]; exact o2)]
    show (ca (2 * nextCorner x0)).c1 = _
    rw [hAc.half, ← o2]
    by_cases h : FanOpen g l0
    · rw [if_pos h, if_pos (hb0.mpr h)]
    · rw [if_neg h, if_neg (by rw [hb0]; exact h)]
  · rw [netB _ _ (by rw [d1]; exact o1.symm)]
    show -(cb (2 * nextCorner x1)).c1 = _
    rw [hBc.half, o1]
    by_cases h : FanOpen g l1
    · rw [if_pos h, if_pos (hb1.mpr h)]
    · rw [if_neg h, if_neg (by rw [hb1]; exact h), neg_zero]
  · intro st
    unfold bcEdge
    rw [if_neg (by omega), mget_ok hf0, mget_ok hv0, mget_ok hf1, mget_ok hv1]
    simp only [Bind.bind, Except.bind, Int.toNat_natCast]
    rw [hAok]
    simp only
    rw [pushAll_append, ← hBok, o1]
  · intro p hp
    rcases List.mem_append.mp hp with hp | hp
    · obtain ⟨F, hF, rfl⟩ := List.mem_map.mp hp
      exact ⟨rfl, ((hA F).mp hF).1⟩
    · obtain ⟨F, hF, rfl⟩ := List.mem_map.mp hp
      exact ⟨rfl, ((hB F).mp hF).1⟩
  · intro F hF
    have happ : ofFace ((A.map fun F => (⟨F, ca F, dof, 1⟩ : Push L)) ++ (B.map fun F => ⟨F, cb F, dof, -1⟩)) F =
        (if F ∈ A then [⟨F, ca F, dof, 1⟩] else []) ++ (if F ∈ B then [⟨F, cb F, dof, -1⟩] else []) := by
      rw [← hone A ca 1 F hAnd, ← hone B cb (-1) F hBnd]
      unfold ofFace
      rw [List.filter_append]
    rw [happ]
    constructor
    · rintro (h | h)
      · have hn : F ∉ A := by rw [hAl F hF, h]; exact hvne
        rw [if_neg hn, if_pos ((hBl F hF).mpr h)]
        refine ⟨_, rfl, fun s => ?_⟩
        rw [netB _ _ h]; simp
      · have hn : F ∉ B := by rw [hBl F hF, h]; exact hvne.symm
        rw [if_neg hn, if_pos ((hAl F hF).mpr h)]
        refine ⟨_, rfl, fun s => ?_⟩
        rw [netA _ _ h]; simp
    · intro ha hb
      rw [if_neg (by rw [hAl F hF]; exact hb), if_neg (by rw [hBl F hF]; exact ha)]
      rfl

end

end Verif.Space
