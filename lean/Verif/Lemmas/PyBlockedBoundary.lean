import Verif.Spec.PyBlockedBoundary
import Verif.Lemmas.PyBlocked2
/-
Lemmas for C87: assignments, and the caches.
-/
namespace Verif.PyOp
noncomputable section

variable {comp : Components}

theorem lastAssigned_snoc (l : List (Nat × Nat × Nat)) (a : Nat × Nat × Nat) (i j : Nat) :
    lastAssigned (l ++ [a]) i j = if i = a.1 ∧ j = a.2.1 then some a.2.2 else lastAssigned l i j := by
  unfold lastAssigned
  rw [List.reverse_append, List.reverse_singleton, List.singleton_append, List.find?_cons]
  by_cases h : i = a.1 ∧ j = a.2.1
  · rw [if_pos h]
    simp [h.1, h.2]
  · rw [if_neg h]
    have : (a.1 == i && a.2.1 == j) = false := by
      rw [Bool.and_eq_false_iff]
      simp only [beq_eq_false_iff_ne, ne_eq]
      by_contra hh
      push Not at hh
      exact h ⟨hh.1.symm, hh.2.symm⟩
    rw [this]

theorem lastAssigned_some {l : List (Nat × Nat × Nat)} {i j k : Nat} (h : lastAssigned l i j = some k) : (i, j, k) ∈ l := by
  unfold lastAssigned at h
  rw [Option.map_eq_some_iff] at h
  obtain ⟨a, h1, h2⟩ := h
  have h3 := List.find?_some h1
  have h4 := List.mem_of_find?_eq_some h1
  rw [Bool.and_eq_true, beq_iff_eq, beq_iff_eq] at h3
  rw [List.mem_reverse] at h4
  obtain ⟨x, y, z⟩ := a
  simp only at h2 h3
  rw [← h3.1, ← h3.2, ← h2]
  exact h4

theorem lastAssigned_exists {l : List (Nat × Nat × Nat)} {a : Nat × Nat × Nat} (h : a ∈ l) : (lastAssigned l a.1 a.2.1).isSome := by
  unfold lastAssigned
  rw [Option.isSome_map, List.find?_isSome]
  exact ⟨a, by rwa [List.mem_reverse], by simp⟩

/-- What an operator contains after the assignments `l`. -/
structure Reached (comp : Components) (m n : Nat) (l : List (Nat × Nat × Nat)) (b : BNode) : Prop where
  kind : b.kind = .base (lastAssigned l)
  rangeLen : b.range.length = m
  dualLen : b.dualToRange.length = m
  domainLen : b.domain.length = n
  row : ∀ a ∈ l, b.range.getD a.1 none = some (comp.range a.2.2) ∧ b.dualToRange.getD a.1 none = some (comp.dualToRange a.2.2)
  col : ∀ a ∈ l, b.domain.getD a.2.1 none = some (comp.domain a.2.2)
  noRow : ∀ i, (∀ a ∈ l, a.1 ≠ i) → b.range.getD i none = none ∧ b.dualToRange.getD i none = none
  noCol : ∀ j, (∀ a ∈ l, a.2.1 ≠ j) → b.domain.getD j none = none
  ok : Consistent comp m n l

theorem getD_none (m i : Nat) : (List.replicate m (none : Option Space)).getD i none = none := by
  rw [List.getD_eq_getElem?_getD, List.getElem?_replicate]
  split <;> rfl

theorem reached_new (m n : Nat) : Reached comp m n [] (BNode.new m n) where
  kind := rfl
  rangeLen := by simp [BNode.new]
  dualLen := by simp [BNode.new]
  domainLen := by simp [BNode.new]
  row := fun a h => (by cases h)
  col := fun a h => (by cases h)
  noRow := fun i _ => ⟨getD_none m i, getD_none m i⟩
  noCol := fun i _ => getD_none n i
  ok := ⟨fun a h => (by cases h), fun a h => (by cases h)⟩

theorem clash_iff (known : Option Space) (s : Space) : clash known s = true ↔ ∃ t, known = some t ∧ t ≠ s := by
  unfold clash
  cases known with
  | none => simp
  | some t => simp

theorem getD_set {α : Type} (l : List (Option α)) (i j : Nat) (x : Option α) (hi : i < l.length) :
    (l.set i x).getD j none = if j = i then x else l.getD j none := by
  simp only [List.getD_eq_getElem?_getD, List.getElem?_set]
  by_cases h : i = j
  · subst h; simp [hi]
  · rw [if_neg h, if_neg (fun hh => h hh.symm)]

theorem reached_step {m n : Nat} {l : List (Nat × Nat × Nat)} {b : BNode} (h : Reached comp m n l b) (a : Nat × Nat × Nat) :
    (∀ b', b.setItem comp a.1 a.2.1 a.2.2 = .ok b' → Reached comp m n (l ++ [a]) b') ∧
    (∀ x, b.setItem comp a.1 a.2.1 a.2.2 = .error x → ¬ Consistent comp m n (l ++ [a]) ∧ (x = .IndexError ∨ x = .ValueError)) := by
  obtain ⟨i, j, k⟩ := a
  have hin : ∀ {p : Nat × Nat × Nat → Prop}, (∃ a ∈ l, p a) ∨ ∀ a ∈ l, ¬ p a := fun {p} => by
    by_cases hh : ∃ a ∈ l, p a
    · exact Or.inl hh
    · exact Or.inr fun a ha hp => hh ⟨a, ha, hp⟩
  unfold BNode.setItem
  rw [h.kind]
  dsimp only
  rw [h.rangeLen, h.domainLen]
  have hmem : ((i, j, k) : Nat × Nat × Nat) ∈ l ++ [(i, j, k)] := by simp
  split_ifs with h0 h1 h2 h3
  · refine ⟨fun b' hb => (by cases hb), fun x hx => ⟨fun hc => ?_, by cases hx; exact Or.inl rfl⟩⟩
    have := hc.1 _ hmem
    simp only at this
    omega
  · refine ⟨fun b' hb => (by cases hb), fun x hx => ⟨fun hc => ?_, by cases hx; exact Or.inr rfl⟩⟩
    obtain ⟨t, ht, hne⟩ := (clash_iff _ _).mp h1
    rcases hin (p := fun a => a.1 = i) with ⟨a, ha, hp⟩ | hno
    · have h4 := (h.row a ha).1
      rw [hp, ht] at h4
      cases h4
      exact hne ((hc.2 a (by simp [ha]) _ hmem).1 hp).1
    · rw [(h.noRow i hno).1] at ht; cases ht
  · refine ⟨fun b' hb => (by cases hb), fun x hx => ⟨fun hc => ?_, by cases hx; exact Or.inr rfl⟩⟩
    obtain ⟨t, ht, hne⟩ := (clash_iff _ _).mp h2
    rcases hin (p := fun a => a.1 = i) with ⟨a, ha, hp⟩ | hno
    · have h4 := (h.row a ha).2
      rw [hp, ht] at h4
      cases h4
      exact hne ((hc.2 a (by simp [ha]) _ hmem).1 hp).2
    · rw [(h.noRow i hno).2] at ht; cases ht
  · refine ⟨fun b' hb => (by cases hb), fun x hx => ⟨fun hc => ?_, by cases hx; exact Or.inr rfl⟩⟩
    obtain ⟨t, ht, hne⟩ := (clash_iff _ _).mp h3
    rcases hin (p := fun a => a.2.1 = j) with ⟨a, ha, hp⟩ | hno
    · have h4 := h.col a ha
      rw [hp, ht] at h4
      cases h4
      exact hne ((hc.2 a (by simp [ha]) _ hmem).2 hp)
    · rw [h.noCol j hno] at ht; cases ht
  · refine ⟨fun b' hb => ?_, fun x hx => (by cases hx)⟩
    cases hb
    rw [clash_iff] at h1 h2 h3
    push Not at h0 h1 h2 h3
    obtain ⟨hi, hj⟩ := h0
    have r1 : ∀ a ∈ l, a.1 = i → comp.range a.2.2 = comp.range k ∧ comp.dualToRange a.2.2 = comp.dualToRange k := by
      intro a ha hai
      have h4 := h.row a ha
      rw [hai] at h4
      exact ⟨h1 _ h4.1, h2 _ h4.2⟩
    have r2 : ∀ a ∈ l, a.2.1 = j → comp.domain a.2.2 = comp.domain k := by
      intro a ha haj
      have h4 := h.col a ha
      rw [haj] at h4
      exact h3 _ h4
    refine ⟨?_, by simp [h.rangeLen], by simp [h.dualLen], by simp [h.domainLen], ?_, ?_, ?_, ?_, ?_, ?_⟩
    · refine congrArg BKind.base ?_
      funext a c
      rw [lastAssigned_snoc]
    · intro a ha
      rw [getD_set _ _ _ _ (by rw [h.rangeLen]; exact hi), getD_set _ _ _ _ (by rw [h.dualLen]; exact hi)]
      rw [List.mem_append, List.mem_singleton] at ha
      rcases ha with ha | rfl
      · by_cases hai : a.1 = i
        · rw [if_pos hai, if_pos hai, (r1 a ha hai).1, (r1 a ha hai).2]
          exact ⟨rfl, rfl⟩
        · rw [if_neg hai, if_neg hai]
          exact h.row a ha
      · simp
    · intro a ha
      rw [getD_set _ _ _ _ (by rw [h.domainLen]; exact hj)]
      rw [List.mem_append, List.mem_singleton] at ha
      rcases ha with ha | rfl
      · by_cases haj : a.2.1 = j
        · rw [if_pos haj, r2 a ha haj]
        · rw [if_neg haj]
          exact h.col a ha
      · simp
    · intro r hr
      rw [getD_set _ _ _ _ (by rw [h.rangeLen]; exact hi), getD_set _ _ _ _ (by rw [h.dualLen]; exact hi)]
      have : r ≠ i := fun hh => hr _ hmem hh.symm
      rw [if_neg this, if_neg this]
      exact h.noRow r fun a ha => hr a (by simp [ha])
    · intro r hr
      rw [getD_set _ _ _ _ (by rw [h.domainLen]; exact hj)]
      have : r ≠ j := fun hh => hr _ hmem hh.symm
      rw [if_neg this]
      exact h.noCol r fun a ha => hr a (by simp [ha])
    · intro a ha
      rw [List.mem_append, List.mem_singleton] at ha
      rcases ha with ha | rfl
      · exact h.ok.1 a ha
      · exact ⟨hi, hj⟩
    · intro a ha c hc
      rw [List.mem_append, List.mem_singleton] at ha hc
      rcases ha with ha | rfl
      · rcases hc with hc | rfl
        · exact h.ok.2 a ha c hc
        · exact ⟨r1 a ha, r2 a ha⟩
      · rcases hc with hc | rfl
        · exact ⟨fun hh => ⟨(r1 c hc hh.symm).1.symm, (r1 c hc hh.symm).2.symm⟩, fun hh => (r2 c hc hh.symm).symm⟩
        · exact ⟨fun _ => ⟨rfl, rfl⟩, fun _ => rfl⟩

theorem Consistent.prefix {m n : Nat} {l r : List (Nat × Nat × Nat)} (h : Consistent comp m n (l ++ r)) : Consistent comp m n l :=
  ⟨fun a ha => h.1 a (by simp [ha]), fun a ha b hb => h.2 a (by simp [ha]) b (by simp [hb])⟩

theorem reached_assign {m n : Nat} : ∀ (r l : List (Nat × Nat × Nat)) (b : BNode), Reached comp m n l b →
    (∀ b', assign comp r b = .ok b' → Reached comp m n (l ++ r) b') ∧
    (∀ x, assign comp r b = .error x → ¬ Consistent comp m n (l ++ r) ∧ (x = .IndexError ∨ x = .ValueError))
  | [], l, b, h => ⟨fun b' hb => (by cases hb; simpa using h), fun x hx => (by cases hx)⟩
  | a :: r, l, b, h => by
    have hs := reached_step h a
    have e1 : assign comp (a :: r) b = (b.setItem comp a.1 a.2.1 a.2.2 >>= fun b => assign comp r b) := rfl
    rw [e1]
    cases hb : b.setItem comp a.1 a.2.1 a.2.2 with
    | error x =>
      refine ⟨fun b' hb => (by cases hb), fun y hy => ?_⟩
      cases hy
      obtain ⟨h1, h2⟩ := hs.2 x hb
      refine ⟨fun hc => h1 ?_, h2⟩
      rw [List.append_cons] at hc
      exact hc.prefix
    | ok b1 =>
      rw [ok_bind]
      have := reached_assign r (l ++ [a]) b1 (hs.1 b1 hb)
      rw [List.append_assoc, List.singleton_append] at this
      exact this

theorem reached_of_ok {m n : Nat} {l : List (Nat × Nat × Nat)} {b : BNode} (h : assign comp l (BNode.new m n) = .ok b) :
    Reached comp m n l b := by
  have := (reached_assign l [] _ (reached_new m n)).1 b h
  simpa using this

/-! ### The caches -/

variable {core : Core} {nodes : Nat → BNode}

/-- The strong form without caches. -/
def pureStrong (core : Core) (nodes : Nat → BNode) (weak : Res BOp) (i : Nat) : Res BOp :=
  strongCheck (nodes i) >>= fun _ => mkRangeMap core (nodes i) >>= fun m => weak >>= fun u => m.mul u

/-- The weak form of each class without caches. -/
def pureImpl (comp : Components) (nodes : Nat → BNode) (weak strong : Nat → Res BOp) (i : Nat) : Res BOp :=
  match (nodes i).kind with
  | .base ops =>
    if (nodes i).fillComplete = false then .error .ValueError
    else mkBlocks (nodes i).range.length (nodes i).domain.length fun a b => (ops a b).map comp.form
  | .sum a b => weak a >>= fun u => weak b >>= fun v => u.add v
  | .product a b => weak a >>= fun u => strong b >>= fun v => u.mul v
  | .scaled a c => weak a >>= fun u => .ok (u.smul c)

/-- The weak form without caches. -/
def pureWeak (core : Core) (comp : Components) (nodes : Nat → BNode) : Nat → Nat → Res BOp
  | 0, _ => .error .RuntimeError
  | n + 1, i => pureImpl comp nodes (pureWeak core comp nodes n) (fun b => pureStrong core nodes (pureWeak core comp nodes n b) b) i

/-- The operands exist before the operator. -/
def Ordered (nodes : Nat → BNode) : Prop := ∀ i, match (nodes i).kind with
  | .base _ => True
  | .sum a b => a < i ∧ b < i
  | .product a b => a < i ∧ b < i
  | .scaled a _ => a < i

theorem pureWeak_stable (ho : Ordered nodes) : ∀ n k i, i < n → i < k → pureWeak core comp nodes n i = pureWeak core comp nodes k i := by
  intro n
  induction n with
  | zero => intro k i h; omega
  | succ n ih =>
    intro k i h1 h2
    obtain ⟨k, rfl⟩ : ∃ k', k = k' + 1 := ⟨k - 1, by omega⟩
    rw [pureWeak, pureWeak]
    unfold pureImpl
    have h := ho i
    cases hk : (nodes i).kind with
    | base ops => rfl
    | sum a b =>
      rw [hk] at h
      dsimp only at h ⊢
      rw [ih k a (by omega) (by omega), ih k b (by omega) (by omega)]
    | product a b =>
      rw [hk] at h
      dsimp only at h ⊢
      rw [ih k a (by omega) (by omega), ih k b (by omega) (by omega)]
    | scaled a c =>
      rw [hk] at h
      dsimp only at h ⊢
      rw [ih k a (by omega) (by omega)]

/-- What the caches contain. -/
structure BInv (core : Core) (comp : Components) (nodes : Nat → BNode) (w : BWorld) : Prop where
  node : w.node = nodes
  weak : ∀ i op, w.weak i = some op → pureWeak core comp nodes (i + 1) i = .ok op
  rangeMap : ∀ i op, w.rangeMap i = some op → mkRangeMap core (nodes i) = .ok op

/-- The computation keeps the invariant and has the result `r`. -/
def BSat (core : Core) (comp : Components) (nodes : Nat → BNode) {α : Type} (m : BM α) (r : Res α) : Prop :=
  ∀ w, BInv core comp nodes w → BInv core comp nodes (m w).2 ∧ (m w).1 = r

theorem bsat_bind {α β : Type} {m : BM α} {f : α → BM β} {r : Res α} {g : α → Res β} (h : BSat core comp nodes m r)
    (hf : ∀ a, BSat core comp nodes (f a) (g a)) : BSat core comp nodes (BM.bind m f) (r >>= g) := by
  intro w hw
  obtain ⟨h1, h2⟩ := h w hw
  unfold BM.bind
  generalize m w = p at h1 h2
  obtain ⟨s, w'⟩ := p
  dsimp only at h1 h2
  subst h2
  cases s with
  | error x => exact ⟨h1, rfl⟩
  | ok a => exact hf a w' h1

theorem bsat_lift {α : Type} (r : Res α) : BSat core comp nodes (BM.lift r) r := fun w hw => ⟨hw, rfl⟩

theorem bsat_rangeMap (i : Nat) : BSat core comp nodes (getBlockedRangeMap core i) (mkRangeMap core (nodes i)) := by
  intro w hw
  unfold getBlockedRangeMap
  cases hr : w.rangeMap i with
  | some op => exact ⟨hw, (hw.rangeMap i op hr).symm⟩
  | none =>
    dsimp only
    rw [hw.node]
    cases hm : mkRangeMap core (nodes i) with
    | error x => exact ⟨hw, rfl⟩
    | ok op =>
      refine ⟨⟨rfl, hw.weak, fun j op' hj => ?_⟩, rfl⟩
      dsimp only at hj
      split at hj
      · rename_i hji
        subst hji
        cases hj
        exact hm
      · exact hw.rangeMap j op' hj

theorem bsat_strong {weak : BM BOp} {u : Res BOp} (r : Bool) (i : Nat) (h : BSat core comp nodes weak u) :
    BSat core comp nodes (blockedStrong core r weak i) (pureStrong core nodes u i) := by
  intro w hw
  unfold blockedStrong pureStrong
  rw [hw.node]
  refine bsat_bind (bsat_lift _) (fun _ => ?_) w hw
  intro w hw
  have h2 : BInv core comp nodes (if r then { w with rangeMap := fun j => if j = i then none else w.rangeMap j } else w) := by
    split
    · refine ⟨hw.node, hw.weak, fun j op hj => ?_⟩
      dsimp only at hj
      split at hj
      · cases hj
      · exact hw.rangeMap j op hj
    · exact hw
  exact bsat_bind (bsat_rangeMap i) (fun m => bsat_bind h fun u => bsat_lift _) _ h2

theorem bsat_weak (ho : Ordered nodes) : ∀ n (r : Bool) i, i < n →
    BSat core comp nodes (blockedWeak core comp n r i) (pureWeak core comp nodes (i + 1) i) := by
  intro n
  induction n with
  | zero => intro r i h; omega
  | succ n ih =>
    intro r i hi w hw
    rw [pureWeak_stable ho (i + 1) (n + 1) i (by omega) hi]
    have h2 : BInv core comp nodes (if r then { w with weak := fun j => if j = i then none else w.weak j } else w) := by
      split
      · refine ⟨hw.node, fun j op hj => ?_, hw.rangeMap⟩
        dsimp only at hj
        split at hj
        · cases hj
        · exact hw.weak j op hj
      · exact hw
    rw [blockedWeak]
    dsimp only
    generalize (if r = true then { w with weak := fun j => if j = i then none else w.weak j } else w) = v at h2 ⊢
    have ih' : ∀ a, a < i → BSat core comp nodes (blockedWeak core comp n false a) (pureWeak core comp nodes n a) := by
      intro a ha
      rw [pureWeak_stable ho n (a + 1) a (by omega) (by omega)]
      exact ih false a (by omega)
    have himpl : BSat core comp nodes (blockedWeakImpl comp (blockedWeak core comp n false)
        (fun b => blockedStrong core false (blockedWeak core comp n false b) b) i) (pureWeak core comp nodes (n + 1) i) := by
      rw [pureWeak]
      intro w hw
      unfold blockedWeakImpl pureImpl
      rw [hw.node]
      have h := ho i
      cases hk : (nodes i).kind with
      | base ops =>
        dsimp only
        split
        · exact ⟨hw, rfl⟩
        · exact ⟨hw, rfl⟩
      | sum a b =>
        rw [hk] at h
        exact bsat_bind (ih' a h.1) (fun u => bsat_bind (ih' b h.2) fun v => bsat_lift _) w hw
      | product a b =>
        rw [hk] at h
        exact bsat_bind (ih' a h.1) (fun u => bsat_bind (bsat_strong false b (ih' b h.2)) fun v => bsat_lift _) w hw
      | scaled a c =>
        rw [hk] at h
        exact bsat_bind (ih' a h) (fun u => bsat_lift _) w hw
    cases hc : v.weak i with
    | some op =>
      refine ⟨h2, ?_⟩
      have := h2.weak i op hc
      rw [pureWeak_stable ho (i + 1) (n + 1) i (by omega) hi] at this
      exact this.symm
    | none =>
      dsimp only
      obtain ⟨h3, h4⟩ := himpl v h2
      generalize blockedWeakImpl comp (blockedWeak core comp n false)
        (fun b => blockedStrong core false (blockedWeak core comp n false b) b) i v = p at h3 h4 ⊢
      obtain ⟨s, w'⟩ := p
      cases s with
      | error x => exact ⟨h3, h4⟩
      | ok op =>
        refine ⟨⟨h3.node, fun j op' hj => ?_, h3.rangeMap⟩, h4⟩
        dsimp only at hj
        split at hj
        · rename_i hji
          subst hji
          cases hj
          rw [pureWeak_stable ho (j + 1) (n + 1) j (by omega) hi]
          exact h4.symm
        · exact h3.weak j op' hj

/-- A request has the result without caches. -/
theorem bstep_request (ho : Ordered nodes) {a : BAction} (ha : a.Request) {w : BWorld} (hw : BInv core comp nodes w) :
    BInv core comp nodes (bstep core comp a w).2 ∧ (bstep core comp a w).1 = match a with
      | .setItem .. => .error .RuntimeError
      | .weakForm _ i => (pureWeak core comp nodes (i + 1) i).map some
      | .strongForm _ i => (pureStrong core nodes (pureWeak core comp nodes (i + 1) i) i).map some := by
  cases a with
  | setItem b i j k => exact ha.elim
  | weakForm r i =>
    obtain ⟨h1, h2⟩ := bsat_weak ho (i + 1) r i (by omega) w hw
    exact ⟨h1, by unfold bstep; dsimp only; rw [h2]⟩
  | strongForm r i =>
    obtain ⟨h1, h2⟩ := bsat_strong r i (bsat_weak ho (i + 1) r i (by omega)) w hw
    exact ⟨h1, by unfold bstep; dsimp only; rw [h2]⟩

end

end Verif.PyOp
