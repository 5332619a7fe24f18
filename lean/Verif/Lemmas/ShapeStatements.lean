import Verif.Spec.Shapes
import Mathlib.Data.List.Nodup
import Mathlib.Tactic.Ring

/-! # Lists of geometry statements -/

noncomputable section

namespace Verif.Shapes

variable {P Q C : Type*}

theorem pointNumbers_append (g h : List (Stmt P)) :
    pointNumbers (g ++ h) = pointNumbers g ++ pointNumbers h := List.filterMap_append ..

theorem lineNumbers_append (g h : List (Stmt P)) :
    lineNumbers (g ++ h) = lineNumbers g ++ lineNumbers h := List.filterMap_append ..

theorem loopNumbers_append (g h : List (Stmt P)) :
    loopNumbers (g ++ h) = loopNumbers g ++ loopNumbers h := List.filterMap_append ..

theorem surfaceNumbers_append (g h : List (Stmt P)) :
    surfaceNumbers (g ++ h) = surfaceNumbers g ++ surfaceNumbers h := List.filterMap_append ..

theorem pointNumbers_flatMap (l : List C) (f : C → List (Stmt P)) :
    pointNumbers (l.flatMap f) = l.flatMap fun c => pointNumbers (f c) := by
  induction l with
  | nil => rfl
  | cons c l ih => rw [List.flatMap_cons, pointNumbers_append, ih, List.flatMap_cons]

theorem lineNumbers_flatMap (l : List C) (f : C → List (Stmt P)) :
    lineNumbers (l.flatMap f) = l.flatMap fun c => lineNumbers (f c) := by
  induction l with
  | nil => rfl
  | cons c l ih => rw [List.flatMap_cons, lineNumbers_append, ih, List.flatMap_cons]

theorem loopNumbers_flatMap (l : List C) (f : C → List (Stmt P)) :
    loopNumbers (l.flatMap f) = l.flatMap fun c => loopNumbers (f c) := by
  induction l with
  | nil => rfl
  | cons c l ih => rw [List.flatMap_cons, loopNumbers_append, ih, List.flatMap_cons]

theorem surfaceNumbers_flatMap (l : List C) (f : C → List (Stmt P)) :
    surfaceNumbers (l.flatMap f) = l.flatMap fun c => surfaceNumbers (f c) := by
  induction l with
  | nil => rfl
  | cons c l ih => rw [List.flatMap_cons, surfaceNumbers_append, ih, List.flatMap_cons]

/-! ### points -/

theorem pointNumbers_pointStmts (f : P → Q) (points : List P) :
    pointNumbers (pointStmts f points) = List.range' 1 points.length := by
  unfold pointNumbers pointStmts
  rw [List.filterMap_map]
  have : ∀ k, (points.zipIdx k).filterMap
      ((fun | Stmt.point n _ => some n | _ => none) ∘ fun q => Stmt.point (1 + q.2) (f q.1))
      = List.range' (1 + k) points.length := by
    induction points with
    | nil => intro k; rfl
    | cons p ps ih =>
      intro k
      rw [List.zipIdx_cons, List.filterMap_cons]
      simp only [Function.comp_apply, List.length_cons]
      rw [List.range'_succ, show 1 + k + 1 = 1 + (k + 1) by omega]
      congr 1
      exact ih (k + 1)
  exact this 0

theorem lineNumbers_pointStmts (f : P → Q) (points : List P) :
    lineNumbers (pointStmts f points) = [] := by
  unfold lineNumbers pointStmts
  rw [List.filterMap_map]
  exact List.filterMap_eq_nil_iff.2 fun _ _ => rfl

theorem loopNumbers_pointStmts (f : P → Q) (points : List P) :
    loopNumbers (pointStmts f points) = [] := by
  unfold loopNumbers pointStmts
  rw [List.filterMap_map]
  exact List.filterMap_eq_nil_iff.2 fun _ _ => rfl

theorem surfaceNumbers_pointStmts (f : P → Q) (points : List P) :
    surfaceNumbers (pointStmts f points) = [] := by
  unfold surfaceNumbers pointStmts
  rw [List.filterMap_map]
  exact List.filterMap_eq_nil_iff.2 fun _ _ => rfl

theorem mem_pointStmts (f : P → Q) (points : List P) (n : ℕ) (q : Q) :
    Stmt.point n q ∈ pointStmts f points ↔ ∃ i p, points[i]? = some p ∧ n = 1 + i ∧ q = f p := by
  unfold pointStmts
  rw [List.mem_map]
  constructor
  · rintro ⟨⟨p, i⟩, h, e⟩
    injection e with e1 e2
    exact ⟨i, p, (List.mk_mem_zipIdx_iff_getElem?).1 h, e1.symm, e2.symm⟩
  · rintro ⟨i, p, h, rfl, rfl⟩
    exact ⟨(p, i), (List.mk_mem_zipIdx_iff_getElem?).2 h, rfl⟩

/-! ### cells -/

theorem cellStmts_eq {one : ℕ → C → Except Exn (List (Stmt Q))} {stm : ℕ → C → List (Stmt Q)}
    {ts : List C} (h : ∀ n, ∀ t ∈ ts, one n t = .ok (stm n t)) (k : ℕ) :
    cellStmts one k ts = .ok ((ts.zipIdx k).flatMap fun q => stm q.2 q.1) := by
  induction ts generalizing k with
  | nil => rfl
  | cons t ts ih =>
    unfold cellStmts
    rw [h k t (List.mem_cons_self ..), ih (fun n t ht => h n t (List.mem_cons_of_mem _ ht))]
    rfl

theorem block_numbers (l : List C) (a b k : ℕ) :
    ((l.zipIdx k).flatMap fun q => (List.range a).map fun j => b + a * q.2 + j)
      = List.range' (b + a * k) (a * l.length) := by
  induction l generalizing k with
  | nil => rfl
  | cons c l ih =>
    rw [List.zipIdx_cons, List.flatMap_cons, ih]
    dsimp only
    rw [← List.range'_eq_map_range, List.length_cons,
      show b + a * (k + 1) = b + a * k + a by ring, List.range'_append_1,
      show a + a * l.length = a * (l.length + 1) by ring]

theorem forall₂_flatMap {α β γ : Type*} {R : α → β → Prop} {l : List γ} {f : γ → List α}
    {g : γ → List β} (h : ∀ c ∈ l, List.Forall₂ R (f c) (g c)) :
    List.Forall₂ R (l.flatMap f) (l.flatMap g) := by
  induction l with
  | nil => exact List.Forall₂.nil
  | cons c l ih =>
    rw [List.flatMap_cons, List.flatMap_cons]
    exact List.rel_append (h c (List.mem_cons_self ..))
      (ih fun c hc => h c (List.mem_cons_of_mem _ hc))

theorem zipIdx_flatMap_fst {α γ : Type*} (l : List γ) (k : ℕ) (g : γ → List α) :
    ((l.zipIdx k).flatMap fun q => g q.1) = l.flatMap g := by
  induction l generalizing k with
  | nil => rfl
  | cons c l ih =>
    rw [List.zipIdx_cons, List.flatMap_cons, List.flatMap_cons, ih]

theorem Joins.mono {g h : List (Stmt P)} (H : ∀ s ∈ g, s ∈ h) {l : ℤ} {a b : ℕ} (j : Joins g l a b) :
    Joins h l a b := by
  rcases j with ⟨n, rfl, hn⟩ | ⟨n, rfl, hn⟩
  · exact .inl ⟨n, rfl, H _ hn⟩
  · exact .inr ⟨n, rfl, H _ hn⟩

theorem Around.mono {g h : List (Stmt P)} (H : ∀ s ∈ g, s ∈ h) {ls : List ℤ} {ns : List ℕ}
    (j : Around g ls ns) : Around h ls ns := by
  unfold Around at *
  exact j.imp fun _ _ => Joins.mono H

theorem Bounds.mono {g h : List (Stmt P)} (H : ∀ s ∈ g, s ∈ h) {s : ℕ} {ns : List ℕ}
    (j : Bounds g s ns) : Bounds h s ns := by
  obtain ⟨l, ls, h1, h2, h3⟩ := j
  exact ⟨l, ls, H _ h1, H _ h2, h3.mono H⟩

theorem inOrder_append (b g h : List (Stmt P)) :
    InOrder b (g ++ h) ↔ InOrder b g ∧ InOrder (b ++ g) h := by
  induction g generalizing b with
  | nil => simp [InOrder]
  | cons s g ih =>
    show (Refers b s ∧ InOrder (b ++ [s]) (g ++ h))
      ↔ (Refers b s ∧ InOrder (b ++ [s]) g) ∧ InOrder (b ++ s :: g) h
    rw [ih, List.append_assoc]
    exact and_assoc.symm

theorem inOrder_pointStmts (f : P → Q) (points : List P) (b : List (Stmt Q)) :
    InOrder b (pointStmts f points) := by
  unfold pointStmts
  generalize points.zipIdx = l
  induction l generalizing b with
  | nil => trivial
  | cons q l ih => exact ⟨trivial, ih _⟩

theorem inOrder_flatMap (l : List C) (f : C → List (Stmt P)) (ns : List ℕ)
    (h : ∀ c ∈ l, ∀ b, (∀ n ∈ ns, n ∈ pointNumbers b) → InOrder b (f c))
    (b : List (Stmt P)) (hb : ∀ n ∈ ns, n ∈ pointNumbers b) : InOrder b (l.flatMap f) := by
  induction l generalizing b with
  | nil => trivial
  | cons c l ih =>
    rw [List.flatMap_cons, inOrder_append]
    refine ⟨h c (List.mem_cons_self ..) b hb,
      ih (fun c hc => h c (List.mem_cons_of_mem _ hc)) _ fun n hn => ?_⟩
    rw [pointNumbers_append]
    exact List.mem_append_left _ (hb n hn)

end Verif.Shapes
