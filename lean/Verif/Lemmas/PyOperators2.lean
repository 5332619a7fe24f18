import Verif.Lemmas.PyOperators
/-
Lemmas for C95: programs that create operators, and what the new operators stand for.
-/
namespace Verif.PyOp
noncomputable section

variable {V : Type} [AddCommGroup V] [Module ℝ V] {lib : Library} {S : Surface V}

/-! ### The list of operators -/

theorem nodesOf_append (l new : List Node) {i : Nat} (h : i < l.length) : nodesOf (l ++ new) i = nodesOf l i := by
  unfold nodesOf
  rw [List.getD_eq_getElem?_getD, List.getD_eq_getElem?_getD, List.getElem?_append_left h]

theorem nodesOf_push (l : List Node) (n : Node) : nodesOf (l ++ [n]) l.length = n := by
  unfold nodesOf
  simp [List.getD_eq_getElem?_getD]

theorem nodesOf_out (l : List Node) {i : Nat} (h : l.length ≤ i) : nodesOf l i = ⟨.zero, 0, 0, 0⟩ := by
  unfold nodesOf
  rw [List.getD_eq_getElem?_getD, List.getElem?_eq_none h, Option.getD_none]

/-- How a node was constructed. -/
def Evidence (core : Core) (nodes : Nat → Node) (i : Nat) (n : Node) : Prop :=
  (∃ k, n.kind = .elementary k) ∨ n.kind = .zero ∨
  (∃ a b, a < i ∧ b < i ∧ mkSum core nodes a b = .ok n) ∨
  (∃ a c, a < i ∧ (c.complex = false → star c.value = c.value) ∧ mkScaled nodes a c = n) ∨
  (∃ a b, a < i ∧ b < i ∧ mkProduct core nodes a b = .ok n) ∨
  (∃ a b, a < i ∧ b < i ∧ mkDualProduct core nodes a b = .ok n) ∨
  (∃ a r, a < i ∧ mkTranspose nodes a r = n) ∨
  (∃ a r, a < i ∧ mkAdjoint nodes a r = n) ∨
  (∃ a d r t, a < i ∧ mkProjection nodes a d r t = some n) ∨
  (∃ a d r t, a < i ∧ core.dofs d = core.dofs (nodes a).domain ∧ core.dofs t = core.dofs (nodes a).dualToRange ∧ mkRewrite a d r t = n)

theorem Evidence.congr {core : Core} {nodes nodes' : Nat → Node} {i : Nat} {n : Node} (h : Evidence core nodes i n) (he : ∀ j < i, nodes' j = nodes j) :
    Evidence core nodes' i n := by
  rcases h with h | h | ⟨a, b, ha, hb, h⟩ | ⟨a, c, ha, hs, h⟩ | ⟨a, b, ha, hb, h⟩ | ⟨a, b, ha, hb, h⟩ | ⟨a, r, ha, h⟩ | ⟨a, r, ha, h⟩ | ⟨a, d, r, t, ha, h⟩ |
    ⟨a, d, r, t, ha, h1, h2, h⟩
  · exact Or.inl h
  · exact Or.inr (Or.inl h)
  · exact Or.inr (Or.inr (Or.inl ⟨a, b, ha, hb, by unfold mkSum at h ⊢; rw [he a ha, he b hb]; exact h⟩))
  · exact Or.inr (Or.inr (Or.inr (Or.inl ⟨a, c, ha, hs, by unfold mkScaled at h ⊢; rw [he a ha]; exact h⟩)))
  · exact Or.inr (Or.inr (Or.inr (Or.inr (Or.inl ⟨a, b, ha, hb, by unfold mkProduct at h ⊢; rw [he a ha, he b hb]; exact h⟩))))
  · exact Or.inr (Or.inr (Or.inr (Or.inr (Or.inr (Or.inl ⟨a, b, ha, hb, by unfold mkDualProduct at h ⊢; rw [he a ha, he b hb]; exact h⟩)))))
  · exact Or.inr (Or.inr (Or.inr (Or.inr (Or.inr (Or.inr (Or.inl ⟨a, r, ha, by unfold mkTranspose at h ⊢; rw [he a ha]; exact h⟩))))))
  · exact Or.inr (Or.inr (Or.inr (Or.inr (Or.inr (Or.inr (Or.inr (Or.inl ⟨a, r, ha, by unfold mkAdjoint at h ⊢; rw [he a ha]; exact h⟩)))))))
  · exact Or.inr (Or.inr (Or.inr (Or.inr (Or.inr (Or.inr (Or.inr (Or.inr (Or.inl ⟨a, d, r, t, ha, by unfold mkProjection at h ⊢; rw [he a ha]; exact h⟩))))))))
  · exact Or.inr (Or.inr (Or.inr (Or.inr (Or.inr (Or.inr (Or.inr (Or.inr (Or.inr ⟨a, d, r, t, ha, by rw [he a ha]; exact h1, by rw [he a ha]; exact h2, h⟩))))))))

theorem OpHeap.push {l : List Node} (h : OpHeap lib l) {n : Node} (hn : Evidence lib.core (nodesOf l) l.length n) : OpHeap lib (l ++ [n]) := by
  intro i
  have hpre : ∀ j < l.length, nodesOf (l ++ [n]) j = nodesOf l j := fun j hj => nodesOf_append l [n] hj
  rcases Nat.lt_trichotomy i l.length with hi | hi | hi
  · have := h i
    rw [hpre i hi]
    exact Evidence.congr this fun j hj => hpre j (by omega)
  · subst hi
    rw [nodesOf_push]
    exact Evidence.congr hn hpre
  · rw [nodesOf_out (l ++ [n]) (by simp; omega)]
    exact Or.inr (Or.inl rfl)

theorem formula_mono {l new : List Node} (h : OpHeap lib l) {τ : Nat → Nat} {i : Nat} {e : Expr} (hf : Formula lib.core (nodesOf l) τ i e) :
    i < l.length → Formula lib.core (nodesOf (l ++ new)) τ i e := by
  induction hf with
  | @elementary i k hk => intro hi; exact .elementary (by rw [nodesOf_append _ _ hi]; exact hk)
  | @zero i hk =>
    intro hi
    have := Formula.zero (core := lib.core) (nodes := nodesOf (l ++ new)) (τ := τ) (i := i) (by rw [nodesOf_append _ _ hi]; exact hk)
    rwa [nodesOf_append _ _ hi] at this
  | @sum i a b u v hk ha hb iha ihb =>
    intro hi
    obtain ⟨h1, h2⟩ := (h.operands i).1 a b (Or.inl hk)
    exact .sum (by rw [nodesOf_append _ _ hi]; exact hk) (iha (by omega)) (ihb (by omega))
  | @scaled i a c u hk ha iha =>
    intro hi
    have h1 := (h.operands i).2 a (Or.inl ⟨c, hk⟩)
    exact .scaled (by rw [nodesOf_append _ _ hi]; exact hk) (iha (by omega))
  | @product i a b u v hk ha hb iha ihb =>
    intro hi
    obtain ⟨h1, h2⟩ := (h.operands i).1 a b (Or.inr (Or.inl hk))
    have := Formula.product (by rw [nodesOf_append _ new hi]; exact hk) (iha (by omega)) (ihb (by omega))
    rwa [nodesOf_append _ _ (show b < l.length by omega)] at this
  | @dualProduct i a b u v hk ha hb iha ihb =>
    intro hi
    obtain ⟨h1, h2⟩ := (h.operands i).1 a b (Or.inr (Or.inr hk))
    have := Formula.dualProduct (by rw [nodesOf_append _ new hi]; exact hk) (iha (by omega)) (ihb (by omega))
    rwa [nodesOf_append _ _ (show a < l.length by omega)] at this
  | @transpose i a u hk ha iha =>
    intro hi
    have h1 := (h.operands i).2 a (Or.inr (Or.inl hk))
    exact .transpose (by rw [nodesOf_append _ _ hi]; exact hk) (iha (by omega))
  | @adjoint i a u hk ha iha =>
    intro hi
    have h1 := (h.operands i).2 a (Or.inr (Or.inr (Or.inl hk)))
    exact .adjoint (by rw [nodesOf_append _ _ hi]; exact hk) (iha (by omega))
  | @reinterpret i a u hk ha iha =>
    intro hi
    have h1 := (h.operands i).2 a (Or.inr (Or.inr (Or.inr (Or.inl hk))))
    exact .reinterpret (by rw [nodesOf_append _ _ hi]; exact hk) (iha (by omega))
  | @projectDual i a u hk h1 h2 ha iha =>
    intro hi
    have h3 := (h.operands i).2 a (Or.inr (Or.inr (Or.inr (Or.inr hk))))
    have hea := nodesOf_append l new (show a < l.length by omega)
    have hei := nodesOf_append l new hi
    have := Formula.projectDual (core := lib.core) (nodes := nodesOf (l ++ new)) (τ := τ) (i := i) (a := a) (u := u) (by rw [hei]; exact hk) (by rw [hei, hea]; exact h1)
      (by rw [hei, hea]; exact h2) (iha (by omega))
    rwa [hei, hea] at this
  | @projectDomain i a u hk h1 h2 ha iha =>
    intro hi
    have h3 := (h.operands i).2 a (Or.inr (Or.inr (Or.inr (Or.inr hk))))
    have hea := nodesOf_append l new (show a < l.length by omega)
    have hei := nodesOf_append l new hi
    have := Formula.projectDomain (core := lib.core) (nodes := nodesOf (l ++ new)) (τ := τ) (i := i) (a := a) (u := u) (by rw [hei]; exact hk) (by rw [hei, hea]; exact h1)
      (by rw [hei, hea]; exact h2) (iha (by omega))
    rwa [hei, hea] at this
  | @projectBoth i a u hk h1 h2 ha iha =>
    intro hi
    have h3 := (h.operands i).2 a (Or.inr (Or.inr (Or.inr (Or.inr hk))))
    have hea := nodesOf_append l new (show a < l.length by omega)
    have hei := nodesOf_append l new hi
    have := Formula.projectBoth (core := lib.core) (nodes := nodesOf (l ++ new)) (τ := τ) (i := i) (a := a) (u := u) (by rw [hei]; exact hk) (by rw [hei, hea]; exact h1)
      (by rw [hei, hea]; exact h2) (iha (by omega))
    rwa [hei, hea] at this

/-! ### Programs -/

theorem Runs.bind {α β : Type} {m : Build α} {f : α → Build β} {l : List Node} {Q : α → List Node → Prop} {R : β → List Node → Prop}
    (h : Runs lib m l Q) (hf : ∀ a new, OpHeap lib (l ++ new) → Q a (l ++ new) → Runs lib (f a) (l ++ new) R) : Runs lib (m >>= f) l R := by
  obtain ⟨a, new, h1, h2, h3⟩ := h
  obtain ⟨b, new', h4, h5, h6⟩ := hf a new h2 h3
  refine ⟨b, new ++ new', ?_, by rw [← List.append_assoc]; exact h5, by rw [← List.append_assoc]; exact h6⟩
  show StateT.bind m f l = _
  unfold StateT.bind
  rw [h1]
  show f a (l ++ new) = _
  rw [h4, List.append_assoc]

theorem Runs.pure {α : Type} {a : α} {l : List Node} {Q : α → List Node → Prop} (hl : OpHeap lib l) (h : Q a l) : Runs lib (Pure.pure a) l Q :=
  ⟨a, [], by rw [List.append_nil]; rfl, by rw [List.append_nil]; exact hl, by rw [List.append_nil]; exact h⟩

theorem Runs.mono {α : Type} {m : Build α} {l : List Node} {Q R : α → List Node → Prop} (h : Runs lib m l Q) (hq : ∀ a new, Q a (l ++ new) → R a (l ++ new)) :
    Runs lib m l R := by
  obtain ⟨a, new, h1, h2, h3⟩ := h
  exact ⟨a, new, h1, h2, hq a new h3⟩

theorem Runs.mono_heap {α : Type} {m : Build α} {l : List Node} {Q R : α → List Node → Prop} (h : Runs lib m l Q)
    (hq : ∀ a new, OpHeap lib (l ++ new) → Q a (l ++ new) → R a (l ++ new)) : Runs lib m l R := by
  obtain ⟨a, new, h1, h2, h3⟩ := h
  exact ⟨a, new, h1, h2, hq a new h2 h3⟩

theorem runs_get {l : List Node} (hl : OpHeap lib l) : Runs lib (get : Build (List Node)) l fun a l' => a = l ∧ l' = l :=
  ⟨l, [], by rw [List.append_nil]; rfl, by rw [List.append_nil]; exact hl, rfl, List.append_nil l⟩

theorem runs_alloc {l : List Node} (hl : OpHeap lib l) {n : Node} (hn : Evidence lib.core (nodesOf l) l.length n) :
    Runs lib (alloc n) l fun i l' => i = l.length ∧ l' = l ++ [n] := ⟨l.length, [n], rfl, hl.push hn, rfl, rfl⟩

theorem runs_allocWith {l : List Node} (hl : OpHeap lib l) {f : (Nat → Node) → Res Node} {n : Node} (hf : f (nodesOf l) = .ok n)
    (hn : Evidence lib.core (nodesOf l) l.length n) : Runs lib (allocWith f) l fun i l' => i = l.length ∧ l' = l ++ [n] :=
  ⟨l.length, [n], by unfold allocWith; rw [hf], hl.push hn, rfl, rfl⟩

/-! ### What operators stand for -/

/-- The weak form of the operator is the Galerkin matrix of `a`; with `z`, its formula contains no zero operator. -/
structure StandsAs (lib : Library) (S : Surface V) (z : Prop) (l : List Node) (i : Nat) (d r t : Space) (a : V →ₗ[ℝ] V →ₗ[ℝ] ℂ) : Prop where
  lt : i < l.length
  domain : (nodesOf l i).domain = d
  range : (nodesOf l i).range = r
  dual : (nodesOf l i).dualToRange = t
  form : ∀ τ, ∃ e, Formula lib.core (nodesOf l) τ i e ∧ e.Wellformed ∧ e.Permitted ∧ (z → e.ZeroFree) ∧
    Denotes e (lib.core.dofs t) (lib.core.dofs d) (S.galerkin lib.core (fun v w => a v w) t d)

variable {z : Prop} {l : List Node} {i j : Nat} {d r t : Space} {a b : V →ₗ[ℝ] V →ₗ[ℝ] ℂ}

theorem StandsAs.extend (h : StandsAs lib S z l i d r t a) (hl : OpHeap lib l) (new : List Node) : StandsAs lib S z (l ++ new) i d r t a := by
  have he := nodesOf_append l new h.lt
  refine ⟨by rw [List.length_append]; have := h.lt; omega, by rw [he]; exact h.domain, by rw [he]; exact h.range, by rw [he]; exact h.dual, fun τ => ?_⟩
  obtain ⟨e, h1, h2⟩ := h.form τ
  exact ⟨e, formula_mono hl h1 h.lt, h2⟩

theorem StandsAs.weaken (h : StandsAs lib S z l i d r t a) {z' : Prop} (hz : z' → z) : StandsAs lib S z' l i d r t a :=
  ⟨h.lt, h.domain, h.range, h.dual, fun τ => by
    obtain ⟨e, h1, h2, h3, h4, h5⟩ := h.form τ
    exact ⟨e, h1, h2, h3, fun hz' => h4 (hz hz'), h5⟩⟩

theorem StandsAs.congr (h : StandsAs lib S z l i d r t a) (he : ∀ p < lib.core.dofs t, ∀ q < lib.core.dofs d, a (S.basis t p) (S.basis d q) = b (S.basis t p) (S.basis d q)) :
    StandsAs lib S z l i d r t b := by
  refine ⟨h.lt, h.domain, h.range, h.dual, fun τ => ?_⟩
  obtain ⟨e, h1, h2, h3, h4, h5⟩ := h.form τ
  have : S.galerkin lib.core (fun v w => b v w) t d = S.galerkin lib.core (fun v w => a v w) t d := by
    ext p q; exact (he p p.2 q q.2).symm
  exact ⟨e, h1, h2, h3, h4, this ▸ h5⟩

theorem permitted_atom {rr c : Nat} {f : Nat → Nat → ℂ} {e : Expr} (h : IsAtom rr c f e) : e.Permitted := by
  refine h.every ?_
  cases h <;> exact ⟨fun _ h => (by cases h), fun _ h => (by cases h)⟩

theorem zeroFree_atom {rr c : Nat} {f : Nat → Nat → ℂ} {e : Expr} (h : IsAtom rr c f e) : e.ZeroFree := by
  refine h.every ?_
  cases h <;> exact fun _ _ h => (by cases h)

theorem permitted_inverse (A : Arr) : (Expr.inverse A).Permitted := ⟨fun _ h => (by cases h), fun _ h => (by cases h)⟩
theorem permitted_sparse (A : Arr) : (Expr.sparse A).Permitted := ⟨fun _ h => (by cases h), fun _ h => (by cases h)⟩
theorem permitted_mul {u v : Expr} (hu : u.Permitted) (hv : v.Permitted) : (Expr.mul u v).Permitted :=
  ⟨⟨fun _ h => (by cases h), fun _ h => (by cases h)⟩, hu, hv⟩
theorem permitted_add {u v : Expr} (hu : u.Permitted) (hv : v.Permitted) : (Expr.add u v).Permitted :=
  ⟨⟨fun _ h => (by cases h), fun _ h => (by cases h)⟩, hu, hv⟩
theorem permitted_smul {c : Scalar} {u : Expr} (hu : u.Permitted) : (Expr.smul c u).Permitted :=
  ⟨⟨fun _ h => (by cases h), fun _ h => (by cases h)⟩, hu⟩
theorem permitted_transpose {u : Expr} (hu : u.Permitted) (hz : u.ZeroFree) : (Expr.transpose u).Permitted :=
  ⟨⟨fun a h => (by cases h; exact hz), fun _ h => (by cases h)⟩, hu⟩
theorem permitted_adjoint {u : Expr} (hu : u.Permitted) (hz : u.ZeroFree ∧ u.RealScalars ∧ u.NonlocalUntransposed) : (Expr.adjoint u).Permitted :=
  ⟨⟨fun _ h => (by cases h), fun a h => (by cases h; exact hz)⟩, hu⟩

theorem zeroFree_inverse (A : Arr) : (Expr.inverse A).ZeroFree := fun _ _ h => (by cases h)
theorem zeroFree_sparse (A : Arr) : (Expr.sparse A).ZeroFree := fun _ _ h => (by cases h)
theorem zeroFree_mul {u v : Expr} (hu : u.ZeroFree) (hv : v.ZeroFree) : (Expr.mul u v).ZeroFree := ⟨fun _ _ h => (by cases h), hu, hv⟩
theorem zeroFree_add {u v : Expr} (hu : u.ZeroFree) (hv : v.ZeroFree) : (Expr.add u v).ZeroFree := ⟨fun _ _ h => (by cases h), hu, hv⟩
theorem zeroFree_smul {c : Scalar} {u : Expr} (hu : u.ZeroFree) : (Expr.smul c u).ZeroFree := ⟨fun _ _ h => (by cases h), hu⟩
theorem zeroFree_transpose {u : Expr} (hu : u.ZeroFree) : (Expr.transpose u).ZeroFree := ⟨fun _ _ h => (by cases h), hu⟩

/-- An elementary operator. -/
theorem runs_elementary (hx : Exact lib S) (hl : OpHeap lib l) (k : Label) (d r t : Space) :
    Runs lib (elementary lib k d r t) l fun i l' => StandsAs lib S True l' i d r t (S.form k) := by
  refine (runs_alloc hl (Or.inl ⟨_, rfl⟩)).mono fun i new h => ?_
  obtain ⟨rfl, h⟩ := h
  rw [h]
  refine ⟨by simp, by rw [nodesOf_push], by rw [nodesOf_push], by rw [nodesOf_push], fun τ => ?_⟩
  have hat := hx.forms k d t (τ l.length)
  exact ⟨_, .elementary (by rw [nodesOf_push]), hat.wellformed, permitted_atom hat, fun _ => zeroFree_atom hat, hat.denotes⟩

/-- `rewrite_operator_spaces`. -/
theorem runs_rewrite (hl : OpHeap lib l) (h : StandsAs lib S z l i d r t a) (d' r' t' : Space) (b : V →ₗ[ℝ] V →ₗ[ℝ] ℂ) (hd : lib.core.dofs d' = lib.core.dofs d)
    (ht : lib.core.dofs t' = lib.core.dofs t) (hb : ∀ p < lib.core.dofs t, ∀ q < lib.core.dofs d, a (S.basis t p) (S.basis d q) = b (S.basis t' p) (S.basis d' q)) :
    Runs lib (rewriteSpaces i d' r' t') l fun j l' => StandsAs lib S z l' j d' r' t' b := by
  refine (runs_alloc hl (n := mkRewrite i d' r' t') (Or.inr (Or.inr (Or.inr (Or.inr (Or.inr (Or.inr (Or.inr (Or.inr (Or.inr ⟨i, d', r', t', h.lt, by rw [h.domain]; exact hd,
    by rw [h.dual]; exact ht, rfl⟩)))))))))).mono fun j new hj => ?_
  obtain ⟨rfl, hj⟩ := hj
  rw [hj]
  refine ⟨by simp, by rw [nodesOf_push]; rfl, by rw [nodesOf_push]; rfl, by rw [nodesOf_push]; rfl, fun τ => ?_⟩
  obtain ⟨e, h1, h2, h3, h4, h5⟩ := h.form τ
  refine ⟨e, .reinterpret (a := i) (by rw [nodesOf_push]; rfl) (formula_mono hl h1 h.lt), h2, h3, h4, Denotes.cast h5 ht.symm hd.symm fun p q => ?_⟩
  exact hb p p.2 q q.2

/-- A scaled operator. -/
theorem runs_scaled (hl : OpHeap lib l) (h : StandsAs lib S z l i d r t a) (c : Scalar) (hc : c.complex = false → star c.value = c.value) :
    Runs lib (allocWith fun nodes => .ok (mkScaled nodes i c)) l fun j l' => StandsAs lib S z l' j d r t (c.value • a) := by
  refine (runs_allocWith hl (n := mkScaled (nodesOf l) i c) rfl (Or.inr (Or.inr (Or.inr (Or.inl ⟨i, c, h.lt, hc, rfl⟩))))).mono fun j new hj => ?_
  obtain ⟨rfl, hj⟩ := hj
  rw [hj]
  refine ⟨by simp, by rw [nodesOf_push]; exact h.domain, by rw [nodesOf_push]; exact h.range, by rw [nodesOf_push]; exact h.dual, fun τ => ?_⟩
  obtain ⟨e, h1, h2, h3, h4, h5⟩ := h.form τ
  exact ⟨.smul c e, .scaled (a := i) (by rw [nodesOf_push]; rfl) (formula_mono hl h1 h.lt), ⟨hc, h2⟩, permitted_smul h3, fun hz => zeroFree_smul (h4 hz), .smul c h5⟩

/-- A transposed operator. -/
theorem runs_transpose (hl : OpHeap lib l) (hz : z) (h : StandsAs lib S z l i d r t a) (r' : Space) :
    Runs lib (allocWith fun nodes => .ok (mkTranspose nodes i r')) l fun j l' => StandsAs lib S z l' j t r' d a.flip := by
  refine (runs_allocWith hl (n := mkTranspose (nodesOf l) i r') rfl (Or.inr (Or.inr (Or.inr (Or.inr (Or.inr (Or.inr (Or.inl ⟨i, r', h.lt, rfl⟩)))))))).mono
    fun j new hj => ?_
  obtain ⟨rfl, hj⟩ := hj
  rw [hj]
  refine ⟨by simp, by rw [nodesOf_push]; exact h.dual, by rw [nodesOf_push]; rfl, by rw [nodesOf_push]; exact h.domain, fun τ => ?_⟩
  obtain ⟨e, h1, h2, h3, h4, h5⟩ := h.form τ
  exact ⟨.transpose e, .transpose (a := i) (by rw [nodesOf_push]; rfl) (formula_mono hl h1 h.lt), h2, permitted_transpose h3 (h4 hz), fun hz => zeroFree_transpose (h4 hz),
    .transpose h5⟩

/-- A sum. -/
theorem runs_sum (hx : Exact lib S) (hl : OpHeap lib l) (hi : StandsAs lib S z l i d r t a) (hj : StandsAs lib S z l j d r t b) :
    Runs lib (allocWith fun nodes => mkSum lib.core nodes i j) l fun k l' => StandsAs lib S z l' k d r t (a + b) := by
  have hok : mkSum lib.core (nodesOf l) i j = .ok ⟨.sum i j, d, r, t⟩ := by
    unfold mkSum
    rw [hi.domain, hi.range, hi.dual, hj.domain, hj.range, hj.dual]
    simp [hx.compatible]
  refine (runs_allocWith hl hok (Or.inr (Or.inr (Or.inl ⟨i, j, hi.lt, hj.lt, hok⟩)))).mono fun k new hk => ?_
  obtain ⟨rfl, hk⟩ := hk
  rw [hk]
  refine ⟨by simp, by rw [nodesOf_push], by rw [nodesOf_push], by rw [nodesOf_push], fun τ => ?_⟩
  obtain ⟨e, h1, h2, h3, h4, h5⟩ := hi.form τ
  obtain ⟨e', h1', h2', h3', h4', h5'⟩ := hj.form τ
  exact ⟨.add e e', .sum (a := i) (b := j) (by rw [nodesOf_push]) (formula_mono hl h1 hi.lt) (formula_mono hl h1' hj.lt), ⟨h2, h2'⟩, permitted_add h3 h3',
    fun hz => zeroFree_add (h4 hz) (h4' hz), .add h5 h5'⟩

/-- The zero operator. -/
theorem runs_zero (hl : OpHeap lib l) (d r t : Space) : Runs lib (alloc ⟨.zero, d, r, t⟩) l fun i l' => StandsAs lib S False l' i d r t 0 := by
  refine (runs_alloc hl (Or.inr (Or.inl rfl))).mono fun i new h => ?_
  obtain ⟨rfl, h⟩ := h
  rw [h]
  refine ⟨by simp, by rw [nodesOf_push], by rw [nodesOf_push], by rw [nodesOf_push], fun τ => ?_⟩
  refine ⟨.zero (lib.core.dofs t) (lib.core.dofs d), ?_, trivial, ⟨fun _ h => (by cases h), fun _ h => (by cases h)⟩, fun h => h.elim, ?_⟩
  · have := Formula.zero (core := lib.core) (nodes := nodesOf (l ++ [⟨.zero, d, r, t⟩])) (τ := τ) (i := l.length) (by rw [nodesOf_push])
    rwa [nodesOf_push] at this
  · exact .zero _ _

/-- The form with both arguments projForm. -/
def projForm (S : Surface V) (core : Core) (a : V →ₗ[ℝ] V →ₗ[ℝ] ℂ) (t d : Space) : V →ₗ[ℝ] V →ₗ[ℝ] ℂ := a.compl₁₂ (projL S core t) (projL S core d)

theorem projForm_apply (core : Core) (a : V →ₗ[ℝ] V →ₗ[ℝ] ℂ) (t d : Space) (v w : V) : projForm S core a t d v w = a (projL S core t v) (projL S core d w) := rfl

theorem galerkin_eq (a : V →ₗ[ℝ] V →ₗ[ℝ] ℂ) (t d : Space) : S.galerkin lib.core (fun v w => a v w) t d =
    gal a (fun k : Fin (lib.core.dofs t) => S.basis t k) (fun k : Fin (lib.core.dofs d) => S.basis d k) := rfl

/-- `project_operator`. -/
theorem runs_project (hx : Exact lib S) (hl : OpHeap lib l) (h : StandsAs lib S z l i d r t a) (d' r' t' : Space) :
    Runs lib (project i d' r' t') l fun j l' => StandsAs lib S z l' j d' r' t' (projForm S lib.core a t d) := by
  have hself : ∀ s, ∀ p < lib.core.dofs s, projL S lib.core s (S.basis s p) = S.basis s p := fun s p hp => proj_self hx (basis_mem s p hp)
  by_cases h0 : d = d' ∧ t = t'
  · obtain ⟨rfl, rfl⟩ := h0
    by_cases hr : r = r'
    · subst hr
      have hm : mkProjection (nodesOf l) i (some d) (some r) (some t) = none := by
        unfold mkProjection
        simp [h.domain, h.range, h.dual]
      refine ⟨i, [], by unfold project; rw [hm, List.append_nil], by rw [List.append_nil]; exact hl, ?_⟩
      rw [List.append_nil]
      refine h.congr fun p hp q hq => ?_
      rw [projForm_apply, hself t p hp, hself d q hq]
    · have hm : mkProjection (nodesOf l) i (some d) (some r') (some t) = some ⟨.reinterpret i, d, r', t⟩ := by
        unfold mkProjection
        simp [h.domain, h.range, h.dual, hr]
      have hhp := hl.push (n := ⟨.reinterpret i, d, r', t⟩) (Or.inr (Or.inr (Or.inr (Or.inr (Or.inr (Or.inr (Or.inr (Or.inr (Or.inl ⟨i, _, _, _, h.lt, hm⟩)))))))))
      refine ⟨l.length, [⟨.reinterpret i, d, r', t⟩], by unfold project; rw [hm], hhp, ?_⟩
      refine ⟨by simp, by rw [nodesOf_push], by rw [nodesOf_push], by rw [nodesOf_push], fun τ => ?_⟩
      obtain ⟨e, h1, h2, h3, h4, h5⟩ := h.form τ
      refine ⟨e, .reinterpret (a := i) (by rw [nodesOf_push]) (formula_mono hl h1 h.lt), h2, h3, h4, Denotes.cast h5 rfl rfl fun p q => ?_⟩
      show _ = projForm S lib.core a t d _ _
      rw [projForm_apply]
      show _ = a (projL S lib.core t (S.basis t p)) (projL S lib.core d (S.basis d q))
      rw [hself t p p.2, hself d q q.2]
      rfl
  · have hm : mkProjection (nodesOf l) i (some d') (some r') (some t') = some ⟨.projection i, d', r', t'⟩ := by
      unfold mkProjection
      simp only [h.domain, h.range, h.dual, Option.getD_some]
      rw [if_neg h0]
    have hhp := hl.push (n := ⟨.projection i, d', r', t'⟩) (Or.inr (Or.inr (Or.inr (Or.inr (Or.inr (Or.inr (Or.inr (Or.inr (Or.inl ⟨i, _, _, _, h.lt, hm⟩)))))))))
    refine ⟨l.length, [⟨.projection i, d', r', t'⟩], by unfold project; rw [hm], hhp, ?_⟩
    refine ⟨by simp, by rw [nodesOf_push], by rw [nodesOf_push], by rw [nodesOf_push], fun τ => ?_⟩
    obtain ⟨e, h1, h2, h3, h4, h5⟩ := h.form τ
    have hf := formula_mono (new := [⟨.projection i, d', r', t'⟩]) hl h1 h.lt
    have hni : nodesOf (l ++ [⟨.projection i, d', r', t'⟩]) i = nodesOf l i := nodesOf_append _ _ h.lt
    obtain ⟨i1, i2⟩ := denotes_inverse hx t
    obtain ⟨j1, j2⟩ := denotes_inverse hx d
    have hkind : (nodesOf (l ++ [⟨.projection i, d', r', t'⟩]) l.length).kind = .projection i := by rw [nodesOf_push]
    have key1 : massM S lib.core t t' * gramInv S lib.core t * S.galerkin lib.core (fun v w => a v w) t d =
        gal a (fun k : Fin (lib.core.dofs t') => projL S lib.core t (S.basis t' k)) (fun k : Fin (lib.core.dofs d) => S.basis d k) := by
      rw [galerkin_eq, ← mul_gal (lib := lib), ← mul_gramInv hx]
      rfl
    have key2 : ∀ {m : Nat} (f : Fin m → V), gal a f (fun k : Fin (lib.core.dofs d) => S.basis d k) * (gramInv S lib.core d * massM S lib.core d' d) =
        gal a f (fun k : Fin (lib.core.dofs d') => projL S lib.core d (S.basis d' k)) := by
      intro m f
      rw [← gal_mul (lib := lib), ← gramInv_mul]
      rfl
    by_cases ht : t' = t
    · have hd : d' ≠ d := fun hd => h0 ⟨hd.symm, ht.symm⟩
      subst ht
      have hform := Formula.projectDomain (core := lib.core) (τ := τ) hkind (by rw [hni, nodesOf_push]; exact h.dual.symm) (by rw [hni, nodesOf_push]; rw [h.domain]; exact hd) hf
      rw [hni, nodesOf_push, h.domain] at hform
      refine ⟨_, hform, ⟨h2, j2, wellformed_mass hx _ _⟩, permitted_mul h3 (permitted_mul (permitted_inverse _) (permitted_sparse _)),
        fun hz => zeroFree_mul (h4 hz) (zeroFree_mul (zeroFree_inverse _) (zeroFree_sparse _)), ?_⟩
      have := Denotes.mul h5 (.mul j1 (denotes_mass hx d' d))
      rw [galerkin_eq, key2] at this
      refine Denotes.cast this rfl rfl fun p q => ?_
      show a (S.basis t' p) _ = a (projL S lib.core t' (S.basis t' p)) _
      rw [hself t' p p.2]
      rfl
    · by_cases hd : d' = d
      · subst hd
        have hform := Formula.projectDual (core := lib.core) (τ := τ) hkind (by rw [hni, nodesOf_push, h.dual]; exact ht) (by rw [hni, nodesOf_push]; exact h.domain.symm) hf
        rw [hni, nodesOf_push, h.dual] at hform
        refine ⟨_, hform, ⟨⟨wellformed_mass hx _ _, i2⟩, h2⟩, permitted_mul (permitted_mul (permitted_sparse _) (permitted_inverse _)) h3,
          fun hz => zeroFree_mul (zeroFree_mul (zeroFree_sparse _) (zeroFree_inverse _)) (h4 hz), ?_⟩
        have := Denotes.mul (.mul (denotes_mass hx t t') i1) h5
        rw [key1] at this
        refine Denotes.cast this rfl rfl fun p q => ?_
        show a _ (S.basis d' q) = a _ (projL S lib.core d' (S.basis d' q))
        rw [hself d' q q.2]
        rfl
      · have hform := Formula.projectBoth (core := lib.core) (τ := τ) hkind (by rw [hni, nodesOf_push, h.dual]; exact ht) (by rw [hni, nodesOf_push, h.domain]; exact hd) hf
        rw [hni, nodesOf_push, h.dual, h.domain] at hform
        refine ⟨_, hform, ⟨⟨⟨wellformed_mass hx _ _, i2⟩, h2⟩, j2, wellformed_mass hx _ _⟩,
          permitted_mul (permitted_mul (permitted_mul (permitted_sparse _) (permitted_inverse _)) h3) (permitted_mul (permitted_inverse _) (permitted_sparse _)),
          fun hz => zeroFree_mul (zeroFree_mul (zeroFree_mul (zeroFree_sparse _) (zeroFree_inverse _)) (h4 hz)) (zeroFree_mul (zeroFree_inverse _) (zeroFree_sparse _)), ?_⟩
        have := Denotes.mul (.mul (.mul (denotes_mass hx t t') i1) h5) (.mul j1 (denotes_mass hx d' d))
        rw [key1, key2] at this
        exact this

end

end Verif.PyOp
