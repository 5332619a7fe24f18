import Verif.Lemmas.PyBlockedBoundary
/-
Lemmas for C87: the matrices of blocked boundary operators.
-/
namespace Verif.PyOp
noncomputable section

variable {core : Core} {comp : Components} {nodes : Nat → BNode}

theorem constructed_ordered (hc : BConstructed comp nodes) : Ordered nodes := by
  intro i
  rcases hc i with ⟨m, n, l, -, h⟩ | ⟨a, b, ha, hb, h⟩ | ⟨a, b, ha, hb, h⟩ | ⟨a, c, ha, h⟩
  · rw [(reached_of_ok h).kind]; trivial
  · unfold mkBlockedSum at h
    split_ifs at h
    have e := Except.ok.inj h
    rw [← e]; exact ⟨ha, hb⟩
  · unfold mkBlockedProduct at h
    split_ifs at h
    have e := Except.ok.inj h
    rw [← e]; exact ⟨ha, hb⟩
  · rw [← h]; exact ha

/-- A list without `None`. -/
theorem list_some : ∀ (l : List (Option Space)), (∀ i < l.length, ∃ s, l.getD i none = some s) → ∃ rs : List Space, l = rs.map some
  | [], _ => ⟨[], rfl⟩
  | x :: l, h => by
    obtain ⟨rs, hrs⟩ := list_some l (fun i hi => by simpa using h (i + 1) (by simpa using hi))
    obtain ⟨s, hs⟩ := h 0 (by simp)
    simp only [List.getD_cons_zero] at hs
    exact ⟨s :: rs, by rw [List.map_cons, ← hrs, hs]⟩

theorem getD_map_some (rs : List Space) (i : Nat) (hi : i < rs.length) : (rs.map some).getD i none = some (rs.getD i 0) := by
  simp [List.getD_eq_getElem?_getD, List.getElem?_map, hi]

theorem getD_map_dofs (rs : List Space) (i : Nat) (hi : i < rs.length) : (rs.map core.dofs).getD i 0 = core.dofs (rs.getD i 0) := by
  simp [List.getD_eq_getElem?_getD, List.getElem?_map, hi]

/-- The spaces of a blocked operator. -/
structure Spaced (comp : Components) (b : BNode) (rs ds cs : List Space) : Prop where
  range : b.range = rs.map some
  dual : b.dualToRange = ds.map some
  domain : b.domain = cs.map some
  len : rs.length = ds.length
  row : ∀ i < rs.length, ∃ k, comp.range k = rs.getD i 0 ∧ comp.dualToRange k = ds.getD i 0

theorem Spaced.unique {b : BNode} {rs ds cs rs' ds' cs' : List Space} (h : Spaced comp b rs ds cs) (h' : Spaced comp b rs' ds' cs') :
    rs = rs' ∧ ds = ds' ∧ cs = cs' := by
  have hi : Function.Injective (some : Space → Option Space) := Option.some_injective _
  exact ⟨List.map_injective_iff.mpr hi (h.range.symm.trans h'.range), List.map_injective_iff.mpr hi (h.dual.symm.trans h'.dual),
    List.map_injective_iff.mpr hi (h.domain.symm.trans h'.domain)⟩

theorem reached_spaced {m n : Nat} {l : List (Nat × Nat × Nat)} {b : BNode} (h : Reached comp m n l b) (hf : Filled m n l) :
    ∃ rs ds cs, Spaced comp b rs ds cs := by
  obtain ⟨rs, hrs⟩ := list_some b.range (fun i hi => by
    obtain ⟨a, ha, rfl⟩ := hf.1 i (by rw [h.rangeLen] at hi; exact hi)
    exact ⟨_, (h.row a ha).1⟩)
  obtain ⟨ds, hds⟩ := list_some b.dualToRange (fun i hi => by
    obtain ⟨a, ha, rfl⟩ := hf.1 i (by rw [h.dualLen] at hi; exact hi)
    exact ⟨_, (h.row a ha).2⟩)
  obtain ⟨cs, hcs⟩ := list_some b.domain (fun i hi => by
    obtain ⟨a, ha, rfl⟩ := hf.2 i (by rw [h.domainLen] at hi; exact hi)
    exact ⟨_, h.col a ha⟩)
  have h1 : rs.length = m := by rw [← h.rangeLen, hrs, List.length_map]
  have h2 : ds.length = m := by rw [← h.dualLen, hds, List.length_map]
  refine ⟨rs, ds, cs, hrs, hds, hcs, h1.trans h2.symm, fun i hi => ?_⟩
  obtain ⟨a, ha, rfl⟩ := hf.1 i (by rw [h1] at hi; exact hi)
  have := h.row a ha
  rw [hrs, hds, getD_map_some _ _ hi, getD_map_some _ _ (by rw [h2, ← h1]; exact hi)] at this
  exact ⟨a.2.2, (Option.some_injective _ this.1).symm, (Option.some_injective _ this.2).symm⟩

theorem constructed_spaced (hc : BConstructed comp nodes) : ∀ i, ∃ rs ds cs, Spaced comp (nodes i) rs ds cs := by
  intro i
  induction i using Nat.strong_induction_on with
  | _ i ih =>
    rcases hc i with ⟨m, n, l, hf, h⟩ | ⟨a, b, ha, hb, h⟩ | ⟨a, b, ha, hb, h⟩ | ⟨a, c, ha, h⟩
    · exact reached_spaced (reached_of_ok h) hf
    · unfold mkBlockedSum at h
      split_ifs at h
      obtain ⟨rs, ds, cs, h1⟩ := ih a ha
      have e := Except.ok.inj h
      rw [← e]
      exact ⟨rs, ds, cs, h1.range, h1.dual, h1.domain, h1.len, h1.row⟩
    · unfold mkBlockedProduct at h
      split_ifs at h
      obtain ⟨rs, ds, cs, h1⟩ := ih a ha
      obtain ⟨rs', ds', cs', h2⟩ := ih b hb
      have e := Except.ok.inj h
      rw [← e]
      exact ⟨rs, ds, cs', h1.range, h1.dual, h2.domain, h1.len, h1.row⟩
    · obtain ⟨rs, ds, cs, h1⟩ := ih a ha
      rw [← h]
      exact ⟨rs, ds, cs, h1.range, h1.dual, h1.domain, h1.len, h1.row⟩

/-- Every operator of a program has a formula. -/
theorem bformula_exists (hc : BConstructed comp nodes) : ∀ i, ∃ e, BFormula core comp nodes i e := by
  intro i
  induction i using Nat.strong_induction_on with
  | _ i ih =>
    have h := constructed_ordered hc i
    cases hk : (nodes i).kind with
    | base ops => exact ⟨_, .base hk⟩
    | sum a b =>
      rw [hk] at h
      obtain ⟨u, hu⟩ := ih a h.1
      obtain ⟨v, hv⟩ := ih b h.2
      exact ⟨_, .sum hk hu hv⟩
    | product a b =>
      rw [hk] at h
      obtain ⟨u, hu⟩ := ih a h.1
      obtain ⟨v, hv⟩ := ih b h.2
      exact ⟨_, .product hk hu hv⟩
    | scaled a c =>
      rw [hk] at h
      obtain ⟨u, hu⟩ := ih a h
      exact ⟨_, .scaled hk hu⟩

/-! ### Tables -/

theorem exists_table (rd cd : List Nat) (B : Nat → Nat → Nat → Nat → ℂ) : ∃ E, IsBlockTable rd cd B E := by
  classical
  refine ⟨fun s t => if h : ∃ x : Nat × Nat × Nat × Nat, x.2.1 < rd.getD x.1 0 ∧ x.2.2.2 < cd.getD x.2.2.1 0 ∧
    s = offset rd x.1 + x.2.1 ∧ t = offset cd x.2.2.1 + x.2.2.2 then B h.choose.1 h.choose.2.2.1 h.choose.2.1 h.choose.2.2.2 else 0, ?_⟩
  intro i hi j hj p hp q hq
  have h : ∃ x : Nat × Nat × Nat × Nat, x.2.1 < rd.getD x.1 0 ∧ x.2.2.2 < cd.getD x.2.2.1 0 ∧
    offset rd i + p = offset rd x.1 + x.2.1 ∧ offset cd j + q = offset cd x.2.2.1 + x.2.2.2 := ⟨(i, p, j, q), hp, hq, rfl, rfl⟩
  dsimp only
  rw [dif_pos h]
  obtain ⟨h1, h2, h3, h4⟩ := h.choose_spec
  obtain ⟨e1, e2⟩ := offset_unique rd hp h1 h3
  obtain ⟨e3, e4⟩ := offset_unique cd hq h2 h4
  rw [← e1, ← e2, ← e3, ← e4]

/-- The entries of a matrix as a table. -/
def tableOf {r c : Nat} (M : Matrix (Fin r) (Fin c) ℂ) (p q : Nat) : ℂ := if h : p < r ∧ q < c then M ⟨p, h.1⟩ ⟨q, h.2⟩ else 0

theorem toM_tableOf {r c : Nat} (M : Matrix (Fin r) (Fin c) ℂ) : toM r c (tableOf M) = M := by
  ext p q
  simp [toM, tableOf]

theorem built_table {op : Op} {r c : Nat} (h : ∃ M : Matrix (Fin r) (Fin c) ℂ, Built op r c M) :
    ∃ F : Nat → Nat → ℂ, Built op r c (toM r c F) := by
  obtain ⟨M, hM⟩ := h
  exact ⟨tableOf M, by rw [toM_tableOf]; exact hM⟩

/-- The inverse of a mass matrix. -/
theorem inverse_built (hs : BlockedSound core comp) {r d : Space} (hf : FullRank (core.mass r d)) :
    (Expr.inverse (core.mass r d)).eval = .ok (.inverse (core.mass r d)) ∧
    ∃ X : Matrix (Fin (core.dofs r)) (Fin (core.dofs d)) ℂ, Built (.inverse (core.mass r d)) _ _ X := by
  have he : (Expr.inverse (core.mass r d)).eval = .ok (.inverse (core.mass r d)) := (mkInverse_eq _).1 hf
  refine ⟨he, ?_⟩
  have key : ∃ X : Matrix (Fin (core.mass r d).cols) (Fin (core.mass r d).rows) ℂ, Built (.inverse (core.mass r d)) _ _ X := by
    obtain ⟨X, hX, -, -⟩ := mp_exists _ hf
    refine ⟨X, .inverse (core.mass r d), ⟨hs.massTyped r d, hf, ?_, ?_⟩, ⟨fun _ h => (by cases h), fun _ h => (by cases h)⟩,
      .inverse _ X hX, he⟩
    · rw [hs.massRows]; exact hs.dofs _
    · rw [hs.massCols]; exact hs.dofs _
  rw [hs.massCols, hs.massRows] at key
  exact key

theorem inverseMasses_diag (hs : BlockedSound core comp) {b : BNode} {rs ds cs : List Space} (h : Spaced comp b rs ds cs) {i : Nat}
    (hi : i < rs.length) : inverseMasses core b i i = some (.inverse (core.mass (rs.getD i 0) (ds.getD i 0))) := by
  unfold inverseMasses
  rw [h.range, h.dual, getD_map_some _ _ hi, getD_map_some _ _ (by rw [← h.len]; exact hi)]
  dsimp only
  rw [if_pos rfl]
  obtain ⟨k, h1, h2⟩ := h.row i hi
  have hf := hs.invertible k
  rw [h1, h2] at hf
  rw [(inverse_built hs hf).1]
  rfl

theorem inverseMasses_off {b : BNode} {i j : Nat} (hij : i ≠ j) : inverseMasses core b i j = none := by
  unfold inverseMasses
  split
  · rw [if_neg hij]
  · rfl

/-- The inverse mass matrices are a blocked operator. -/
theorem inverseMasses_denotes (hs : BlockedSound core comp) {b : BNode} {rs ds cs : List Space} (h : Spaced comp b rs ds cs) :
    ∃ X, BDenotes (.blocks b.range.length b.range.length (inverseMasses core b)) (rs.map core.dofs) (ds.map core.dofs) X := by
  have key : ∀ i, i < rs.length → ∃ F : Nat → Nat → ℂ, Built (.inverse (core.mass (rs.getD i 0) (ds.getD i 0)))
      (core.dofs (rs.getD i 0)) (core.dofs (ds.getD i 0)) (toM _ _ F) := by
    intro i hi
    obtain ⟨k, h1, h2⟩ := h.row i hi
    have hf := hs.invertible k
    rw [h1, h2] at hf
    exact built_table (inverse_built hs hf).2
  choose! F hF using key
  have hl : b.range.length = rs.length := by rw [h.range, List.length_map]
  obtain ⟨E, hE⟩ := exists_table (rs.map core.dofs) (ds.map core.dofs) (fun i j => if i = j then F i else fun _ _ => 0)
  refine ⟨_, BDenotes.blocks (by rw [hl, List.length_map]) (by rw [hl, List.length_map, h.len]) (fun i hi j hj => ?_) ⟨fun i hi => ?_,
    fun j hj => ?_⟩ hE⟩
  · rw [List.length_map] at hi hj
    rw [getD_map_dofs _ _ hi, getD_map_dofs _ _ hj]
    by_cases hij : i = j
    · subst hij
      rw [inverseMasses_diag hs h hi]
      refine ⟨fun op ho => ?_, fun ho => (by cases ho)⟩
      cases ho
      rw [if_pos rfl]
      exact hF i hi
    · rw [inverseMasses_off hij]
      refine ⟨fun op ho => (by cases ho), fun _ p _ q _ => ?_⟩
      rw [if_neg hij]
  · exact ⟨i, hi, by rw [inverseMasses_diag hs h (by omega)]; rfl⟩
  · exact ⟨j, hj, by rw [inverseMasses_diag hs h (by omega)]; rfl⟩

/-- Every formula stands for a block matrix of the right dimensions. -/
theorem bformula_denotes (hc : BConstructed comp nodes) (hs : BlockedSound core comp) {i : Nat} {e : BExpr}
    (he : BFormula core comp nodes i e) : ∀ {rs ds cs : List Space}, Spaced comp (nodes i) rs ds cs →
      ∃ M, BDenotes e (ds.map core.dofs) (cs.map core.dofs) M := by
  induction he with
  | @base i ops hk =>
    intro rs ds cs hsp
    rcases hc i with ⟨m, n, l, hf, h⟩ | ⟨a, b, ha, hb, h⟩ | ⟨a, b, ha, hb, h⟩ | ⟨a, c, ha, h⟩
    · have hr := reached_of_ok h
      have hkk := hr.kind
      rw [hk] at hkk
      cases hkk
      have hm : m = rs.length := by rw [← hr.rangeLen, hsp.range, List.length_map]
      have hn : n = cs.length := by rw [← hr.domainLen, hsp.domain, List.length_map]
      have key : ∀ k, ∃ F : Nat → Nat → ℂ, Built (comp.form k) (core.dofs (comp.dualToRange k)) (core.dofs (comp.domain k)) (toM _ _ F) :=
        fun k => built_table (hs.form k)
      choose F hF using key
      obtain ⟨E, hE⟩ := exists_table (ds.map core.dofs) (cs.map core.dofs)
        (fun a b => ((lastAssigned l a b).map F).getD fun _ _ => 0)
      rw [hr.rangeLen, hr.domainLen]
      refine ⟨_, BDenotes.blocks (by rw [List.length_map, ← hsp.len, hm]) (by rw [List.length_map, hn]) (fun a ha b hb => ?_)
        ⟨fun a ha => ?_, fun b hb => ?_⟩ hE⟩
      · rw [List.length_map] at ha hb
        rw [getD_map_dofs _ _ ha, getD_map_dofs _ _ hb]
        cases hl : lastAssigned l a b with
        | none => exact ⟨fun op ho => (by cases ho), fun _ p _ q _ => rfl⟩
        | some k =>
          refine ⟨fun op ho => ?_, fun ho => (by cases ho)⟩
          cases ho
          have hmem := lastAssigned_some hl
          have h1 := (hr.row _ hmem).2
          have h2 := hr.col _ hmem
          dsimp only at h1 h2
          rw [hsp.dual, getD_map_some _ _ ha] at h1
          rw [hsp.domain, getD_map_some _ _ hb] at h2
          rw [Option.some_injective _ h1, Option.some_injective _ h2]
          exact hF k
      · obtain ⟨x, hx, rfl⟩ := hf.1 a ha
        refine ⟨x.2.1, (hr.ok.1 x hx).2, ?_⟩
        rw [Option.isSome_map]
        exact lastAssigned_exists hx
      · obtain ⟨x, hx, rfl⟩ := hf.2 b hb
        refine ⟨x.1, (hr.ok.1 x hx).1, ?_⟩
        rw [Option.isSome_map]
        exact lastAssigned_exists hx
    · unfold mkBlockedSum at h
      split_ifs at h
      have e := Except.ok.inj h
      rw [← e] at hk; cases hk
    · unfold mkBlockedProduct at h
      split_ifs at h
      have e := Except.ok.inj h
      rw [← e] at hk; cases hk
    · rw [← h] at hk; cases hk
  | @sum i a b u v hk hu hv iha ihb =>
    intro rs ds cs hsp
    obtain ⟨h1, h2, h3⟩ : (nodes i).dualToRange = (nodes a).dualToRange ∧ (nodes i).domain = (nodes a).domain ∧
        ((nodes a).range = (nodes b).range ∧ (nodes a).dualToRange = (nodes b).dualToRange ∧ (nodes a).domain = (nodes b).domain ∧
          (nodes i).range = (nodes a).range) := by
      rcases hc i with ⟨m, n, l, hf, h⟩ | ⟨a', b', ha, hb, h⟩ | ⟨a', b', ha, hb, h⟩ | ⟨a', c, ha, h⟩
      · rw [(reached_of_ok h).kind] at hk; cases hk
      · unfold mkBlockedSum at h
        split_ifs at h with q1 q2 q3 q4
        have e := Except.ok.inj h
        rw [← e] at hk ⊢
        cases hk
        exact ⟨rfl, rfl, not_not.mp q2, not_not.mp q3, not_not.mp q4, rfl⟩
      · unfold mkBlockedProduct at h
        split_ifs at h
        have e := Except.ok.inj h
        rw [← e] at hk; cases hk
      · rw [← h] at hk; cases hk
    have sa : Spaced comp (nodes a) rs ds cs := ⟨h3.2.2.2 ▸ hsp.range, h1 ▸ hsp.dual, h2 ▸ hsp.domain, hsp.len, hsp.row⟩
    have sb : Spaced comp (nodes b) rs ds cs := ⟨h3.1 ▸ sa.range, h3.2.1 ▸ sa.dual, h3.2.2.1 ▸ sa.domain, hsp.len, hsp.row⟩
    obtain ⟨A, hA⟩ := iha sa
    obtain ⟨B, hB⟩ := ihb sb
    exact ⟨_, .add hA hB⟩
  | @product i a b u v hk hu hv iha ihb =>
    intro rs ds cs hsp
    obtain ⟨h1, h2, h3, h4⟩ : (nodes i).dualToRange = (nodes a).dualToRange ∧ (nodes i).domain = (nodes b).domain ∧
        (nodes a).domain = (nodes b).range ∧ (nodes i).range = (nodes a).range := by
      rcases hc i with ⟨m, n, l, hf, h⟩ | ⟨a', b', ha, hb, h⟩ | ⟨a', b', ha, hb, h⟩ | ⟨a', c, ha, h⟩
      · rw [(reached_of_ok h).kind] at hk; cases hk
      · unfold mkBlockedSum at h
        split_ifs at h
        have e := Except.ok.inj h
        rw [← e] at hk; cases hk
      · unfold mkBlockedProduct at h
        split_ifs at h with q1 q2
        have e := Except.ok.inj h
        rw [← e] at hk ⊢
        cases hk
        exact ⟨rfl, rfl, not_not.mp q2, rfl⟩
      · rw [← h] at hk; cases hk
    obtain ⟨rs', ds', cs', sb⟩ := constructed_spaced hc b
    have hcs : cs' = cs := List.map_injective_iff.mpr (Option.some_injective _) (sb.domain.symm.trans (h2.symm.trans hsp.domain))
    subst hcs
    have sa : Spaced comp (nodes a) rs ds rs' := ⟨h4 ▸ hsp.range, h1 ▸ hsp.dual, h3.trans sb.range, hsp.len, hsp.row⟩
    obtain ⟨A, hA⟩ := iha sa
    obtain ⟨B, hB⟩ := ihb sb
    obtain ⟨X, hX⟩ := inverseMasses_denotes hs sb
    exact ⟨_, .mul hA (.mul hX hB)⟩
  | @scaled i a c u hk hu iha =>
    intro rs ds cs hsp
    obtain ⟨h1, h2, h4⟩ : (nodes i).dualToRange = (nodes a).dualToRange ∧ (nodes i).domain = (nodes a).domain ∧
        (nodes i).range = (nodes a).range := by
      rcases hc i with ⟨m, n, l, hf, h⟩ | ⟨a', b', ha, hb, h⟩ | ⟨a', b', ha, hb, h⟩ | ⟨a', c', ha, h⟩
      · rw [(reached_of_ok h).kind] at hk; cases hk
      · unfold mkBlockedSum at h
        split_ifs at h
        have e := Except.ok.inj h
        rw [← e] at hk; cases hk
      · unfold mkBlockedProduct at h
        split_ifs at h
        have e := Except.ok.inj h
        rw [← e] at hk; cases hk
      · rw [← h] at hk ⊢
        cases hk
        exact ⟨rfl, rfl, rfl⟩
    obtain ⟨A, hA⟩ := iha ⟨h4 ▸ hsp.range, h1 ▸ hsp.dual, h2 ▸ hsp.domain, hsp.len, hsp.row⟩
    exact ⟨_, .smul c hA⟩

theorem strong_denotes (hs : BlockedSound core comp) {b : BNode} {rs ds cs : List Space} (h : Spaced comp b rs ds cs) {e : BExpr}
    {M : Matrix (Fin (ds.map core.dofs).sum) (Fin (cs.map core.dofs).sum) ℂ} (hM : BDenotes e (ds.map core.dofs) (cs.map core.dofs) M) :
    ∃ N, BDenotes (blockedStrongFormula core b e) (rs.map core.dofs) (cs.map core.dofs) N := by
  obtain ⟨X, hX⟩ := inverseMasses_denotes hs h
  exact ⟨_, .mul hX hM⟩

/-! ### The pure forms are the formulas -/

theorem fillComplete_of_spaced {b : BNode} {rs ds cs : List Space} (h : Spaced comp b rs ds cs) : b.fillComplete = true := by
  unfold BNode.fillComplete
  rw [h.domain, h.range]
  simp [List.all_map]

theorem rowInverse_ok (hs : BlockedSound core comp) {b : BNode} {rs ds cs : List Space} (h : Spaced comp b rs ds cs) {i : Nat}
    (hi : i < rs.length) : rowInverse core b i = .ok (.inverse (core.mass (rs.getD i 0) (ds.getD i 0))) := by
  unfold rowInverse
  rw [h.range, h.dual, getD_map_some _ _ hi, getD_map_some _ _ (by rw [← h.len]; exact hi)]
  dsimp only
  obtain ⟨k, h1, h2⟩ := h.row i hi
  have hf := hs.invertible k
  rw [h1, h2] at hf
  exact (mkInverse_eq _).1 hf

theorem mapM_range_ok {α : Type} {f : Nat → Res α} {g : Nat → α} (n : Nat) (h : ∀ i < n, f i = .ok (g i)) :
    (List.range n).mapM f = .ok ((List.range n).map g) := by
  have : ∀ l : List Nat, (∀ i ∈ l, f i = .ok (g i)) → l.mapM f = .ok (l.map g) := by
    intro l
    induction l with
    | nil => intro _; rfl
    | cons a l ih =>
      intro hl
      rw [List.mapM_cons, hl a (by simp), ok_bind, ih (fun i hi => hl i (by simp [hi])), ok_bind]
      rfl
  exact this _ fun i hi => h i (List.mem_range.mp hi)

theorem mkRangeMap_square (hs : BlockedSound core comp) {b : BNode} {rs ds cs : List Space} (h : Spaced comp b rs ds cs)
    (hq : b.Square) : mkRangeMap core b = (BExpr.blocks b.range.length b.range.length (inverseMasses core b)).eval := by
  unfold mkRangeMap
  have hl : b.range.length = rs.length := by rw [h.range, List.length_map]
  have hd : b.domain.length = rs.length := by rw [← hl]; exact hq.symm
  rw [hl, hd, mapM_range_ok (g := fun i => .inverse (core.mass (rs.getD i 0) (ds.getD i 0))) rs.length (fun i hi => by
    rw [rowInverse_ok hs h hi, ok_bind, if_neg (by omega)])]
  rw [ok_bind, BExpr.eval]
  congr 1
  funext i j
  by_cases hij : i = j
  · subst hij
    rw [if_pos rfl]
    by_cases hi : i < rs.length
    · rw [inverseMasses_diag hs h hi]
      simp [hi]
    · unfold inverseMasses
      have : b.range.getD i none = none := by
        rw [h.range, List.getD_eq_getElem?_getD, List.getElem?_eq_none (by simpa using hi)]; rfl
      rw [this]
      simp only [List.getElem?_map, Option.map_eq_none_iff, List.getElem?_eq_none_iff, List.length_range]
      omega
  · rw [if_neg hij, inverseMasses_off hij]

/-- The range map of an operator that is not square cannot be computed. -/
theorem mkRangeMap_nonsquare (hs : BlockedSound core comp) {b : BNode} {rs ds cs : List Space} (h : Spaced comp b rs ds cs)
    (hq : ¬ b.Square) : ∃ x, mkRangeMap core b = .error x ∧ (x = .IndexError ∨ x = .ValueError) := by
  have hl : b.range.length = rs.length := by rw [h.range, List.length_map]
  unfold BNode.Square at hq
  unfold mkRangeMap
  rw [hl] at hq ⊢
  rcases lt_or_gt_of_ne hq with hlt | hgt
  · rw [mapM_range_ok (g := fun i => .inverse (core.mass (rs.getD i 0) (ds.getD i 0))) rs.length (fun i hi => by
      rw [rowInverse_ok hs h hi, ok_bind, if_neg (by omega)]), ok_bind]
    cases hm : mkBlocks rs.length b.domain.length (fun i j => if i = j then
        ((List.range rs.length).map fun i => Op.inverse (core.mass (rs.getD i 0) (ds.getD i 0)))[i]? else none) with
    | error x => exact ⟨x, rfl, Or.inr (mkBlocks_error hm)⟩
    | ok op =>
      obtain ⟨rd, cd, -, -, hcov, -⟩ := mkBlocks_ok hm
      obtain ⟨i, hi, hsome⟩ := hcov.2 rs.length hlt
      dsimp only at hsome
      rw [if_neg (by omega)] at hsome
      cases hsome
  · have : ∃ l₁ l₂, List.range rs.length = l₁ ++ b.domain.length :: l₂ ∧ ∀ i ∈ l₁, i < b.domain.length := by
      refine ⟨List.range b.domain.length, (List.range (rs.length - b.domain.length - 1)).map (b.domain.length + 1 + ·), ?_,
        fun i hi => List.mem_range.mp hi⟩
      rw [show rs.length = b.domain.length + (1 + (rs.length - b.domain.length - 1)) by omega, List.range_add, List.range_add]
      simp [Nat.add_assoc, Function.comp_def]
    obtain ⟨l₁, l₂, he, hlt⟩ := this
    refine ⟨.IndexError, ?_, Or.inl rfl⟩
    rw [he, List.mapM_append]
    have h1 : ∀ l : List Nat, (∀ i ∈ l, i < b.domain.length) → ∃ ys, (l.mapM fun index => do
        let inv ← rowInverse core b index
        if b.domain.length ≤ index then Except.error Exn.IndexError else Except.ok inv) = (Except.ok ys : Res (List Op)) := by
      intro l
      induction l with
      | nil => intro _; exact ⟨[], rfl⟩
      | cons a l ih =>
        intro hl
        obtain ⟨ys, hys⟩ := ih (fun i hi => hl i (by simp [hi]))
        have ha := hl a (by simp)
        rw [List.mapM_cons, rowInverse_ok hs h (by omega), ok_bind, if_neg (by omega), ok_bind, hys]
        exact ⟨_, rfl⟩
    obtain ⟨ys, hys⟩ := h1 l₁ hlt
    rw [hys, ok_bind, List.mapM_cons, rowInverse_ok hs h (by omega), ok_bind, if_pos (le_refl _)]
    rfl

theorem pureStrong_square (hs : BlockedSound core comp) {i : Nat} {rs ds cs : List Space} (h : Spaced comp (nodes i) rs ds cs)
    (hq : (nodes i).Square) (e : BExpr) : pureStrong core nodes e.eval i = (blockedStrongFormula core (nodes i) e).eval := by
  unfold pureStrong
  have : strongCheck (nodes i) = .ok () := by
    unfold strongCheck
    split
    · rw [fillComplete_of_spaced h]; rfl
    · rfl
  rw [this, ok_bind, mkRangeMap_square hs h hq]
  rfl

theorem pureStrong_nonsquare (hs : BlockedSound core comp) {i : Nat} {rs ds cs : List Space} (h : Spaced comp (nodes i) rs ds cs)
    (hq : ¬ (nodes i).Square) (u : Res BOp) : ∃ x, pureStrong core nodes u i = .error x ∧ (x = .IndexError ∨ x = .ValueError) := by
  unfold pureStrong
  have : strongCheck (nodes i) = .ok () := by
    unfold strongCheck
    split
    · rw [fillComplete_of_spaced h]; rfl
    · rfl
  obtain ⟨x, hx, hx2⟩ := mkRangeMap_nonsquare hs h hq
  rw [this, ok_bind, hx]
  exact ⟨x, rfl, hx2⟩

theorem pureWeak_formula (hc : BConstructed comp nodes) (hs : BlockedSound core comp) (hq : SquareProducts nodes) {i : Nat} {e : BExpr}
    (he : BFormula core comp nodes i e) : ∀ n, i < n → pureWeak core comp nodes n i = e.eval := by
  have ho := constructed_ordered hc
  induction he with
  | @base i ops hk =>
    intro n hn
    obtain ⟨n, rfl⟩ : ∃ k, n = k + 1 := ⟨n - 1, by omega⟩
    obtain ⟨rs, ds, cs, hsp⟩ := constructed_spaced hc i
    rw [pureWeak, pureImpl, hk]
    dsimp only
    rw [fillComplete_of_spaced hsp, if_neg (by simp)]
    rfl
  | @sum i a b u v hk hu hv iha ihb =>
    intro n hn
    obtain ⟨n, rfl⟩ : ∃ k, n = k + 1 := ⟨n - 1, by omega⟩
    have h := ho i
    rw [hk] at h
    rw [pureWeak, pureImpl, hk]
    dsimp only at h ⊢
    rw [iha n (by omega), ihb n (by omega)]
    rfl
  | @product i a b u v hk hu hv iha ihb =>
    intro n hn
    obtain ⟨n, rfl⟩ : ∃ k, n = k + 1 := ⟨n - 1, by omega⟩
    have h := ho i
    rw [hk] at h
    obtain ⟨rs, ds, cs, hsp⟩ := constructed_spaced hc b
    rw [pureWeak, pureImpl, hk]
    dsimp only at h ⊢
    rw [iha n (by omega), ihb n (by omega), pureStrong_square hs hsp (hq i a b hk)]
    rfl
  | @scaled i a c u hk hu iha =>
    intro n hn
    obtain ⟨n, rfl⟩ : ∃ k, n = k + 1 := ⟨n - 1, by omega⟩
    have h := ho i
    rw [hk] at h
    rw [pureWeak, pureImpl, hk]
    dsimp only at h ⊢
    rw [iha n (by omega)]
    rfl

end

end Verif.PyOp
