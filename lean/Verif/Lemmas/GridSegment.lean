import Verif.Model.GridSegment
import Mathlib.Algebra.BigOperators.Group.List.Basic
import Mathlib.Tactic.Ring
/-
Lemmas about grid segments.
-/
namespace Verif.Grid

theorem complementLoop_mem (n : Nat) : ∀ (index : Int) (it : List Int) (acc : Finset Int),
    it.Pairwise (· < ·) → (∀ y ∈ it, index ≤ y) → ∀ x,
      (x ∈ complementLoop n index it acc ↔ x ∈ acc ∨ (index ≤ x ∧ x < index + n ∧ x ∉ it)) := by
  induction n with
  | zero =>
    intro index it acc _ _ x
    simp only [complementLoop]
    constructor
    · intro h; exact Or.inl h
    · rintro (h | ⟨h1, h2, _⟩)
      · exact h
      · simp at h2; omega
  | succ n ih =>
    intro index it acc hp hge x
    cases it with
    | nil =>
      rw [complementLoop, ih _ _ _ hp (by simp)]
      simp only [Finset.mem_insert, List.not_mem_nil, not_false_eq_true, and_true]
      push_cast
      constructor
      · rintro ((rfl | h) | h)
        · right; omega
        · exact Or.inl h
        · right; omega
      · rintro (h | h)
        · exact Or.inl (Or.inr h)
        · by_cases hx : x = index
          · exact Or.inl (Or.inl hx)
          · right; omega
    | cons y it =>
      have hy := hge y List.mem_cons_self
      have hp' := List.pairwise_cons.mp hp
      rw [complementLoop]
      split
      · rename_i hlt
        rw [ih _ _ _ hp (fun z hz => by
          rcases List.mem_cons.mp hz with rfl | hz
          · omega
          · have := hp'.1 z hz; omega)]
        simp only [Finset.mem_insert]
        push_cast
        constructor
        · rintro ((rfl | h) | ⟨h1, h2, h3⟩)
          · right
            refine ⟨le_refl _, by omega, ?_⟩
            intro hm
            rcases List.mem_cons.mp hm with h | h
            · omega
            · have := hp'.1 _ h; omega
          · exact Or.inl h
          · exact Or.inr ⟨by omega, by omega, h3⟩
        · rintro (h | ⟨h1, h2, h3⟩)
          · exact Or.inl (Or.inr h)
          · by_cases hx : x = index
            · exact Or.inl (Or.inl hx)
            · exact Or.inr ⟨by omega, by omega, h3⟩
      · rename_i hlt
        have hyi : y = index := by omega
        subst hyi
        rw [ih _ _ _ hp'.2 (fun z hz => by have := hp'.1 z hz; omega)]
        push_cast
        simp only [List.mem_cons, not_or]
        constructor
        · rintro (h | ⟨h1, h2, h3⟩)
          · exact Or.inl h
          · exact Or.inr ⟨by omega, by omega, by omega, h3⟩
        · rintro (h | ⟨h1, h2, h3, h4⟩)
          · exact Or.inl h
          · exact Or.inr ⟨by omega, by omega, h4⟩

theorem complement_mem (s : GridSegment) (c : Nat) (h : ∀ i ∈ s.excluded c, 0 ≤ i) (x : Int) :
    x ∈ s.complement.excluded c ↔ 0 ≤ x ∧ x < s.counts c ∧ x ∉ s.excluded c := by
  unfold GridSegment.complement
  simp only
  have hs : ((s.excluded c).sort (· ≤ ·)).Pairwise (· < ·) :=
    Finset.sortedLT_sort _ |>.pairwise
  rw [complementLoop_mem _ _ _ _ hs (fun y hy => h y ((Finset.mem_sort _).mp hy))]
  simp only [Finset.notMem_empty, false_or, Finset.mem_sort]
  constructor
  · rintro ⟨h1, h2, h3⟩; exact ⟨h1, by omega, h3⟩
  · rintro ⟨h1, h2, h3⟩; exact ⟨h1, by omega, h3⟩

theorem contains_true (s : GridSegment) (codim i : Int) :
    s.contains codim i = .ok true ↔ (0 ≤ codim ∧ codim ≤ 3) ∧ 0 ≤ i ∧ i < s.counts codim.toNat ∧
      i ∉ s.excluded codim.toNat := by
  unfold GridSegment.contains
  split
  · rename_i h
    constructor
    · intro hc; cases hc
    · rintro ⟨⟨h1, h2⟩, _⟩; omega
  · rename_i h
    simp only [Except.ok.injEq, Bool.and_eq_true, decide_eq_true_eq, ge_iff_le]
    constructor
    · rintro ⟨⟨h1, h2⟩, h3⟩; exact ⟨by omega, h1, h2, h3⟩
    · rintro ⟨_, h1, h2, h3⟩; exact ⟨⟨h1, h2⟩, h3⟩

/-! ### Domains -/

theorem mem_foldl_insert (l : List Nat) : ∀ (s : Finset Int) (x : Int),
    x ∈ l.foldl (fun (s : Finset Int) (i : Nat) => insert (i : Int) s) s ↔ x ∈ s ∨ ∃ i ∈ l, x = (i : Int) := by
  induction l with
  | nil => intro s x; simp
  | cons a l ih =>
    intro s x
    rw [List.foldl_cons, ih, Finset.mem_insert]
    simp only [List.mem_cons, exists_eq_or_imp]
    tauto

theorem mem_insertAll (ex : Nat → Finset Int) (c : Nat) (l : List Nat) (q : Nat) (x : Int) :
    x ∈ insertAll ex c l q ↔ x ∈ ex q ∨ (q = c ∧ ∃ i ∈ l, x = (i : Int)) := by
  unfold insertAll
  by_cases h : q = c
  · subst h
    rw [Function.update_self, mem_foldl_insert]; simp
  · rw [Function.update_of_ne h]; simp [h]

theorem mem_foldl_insertAll (f : Nat → List Nat) (cs : List Nat) : ∀ (ex : Nat → Finset Int) (q : Nat)
    (x : Int), x ∈ cs.foldl (fun ex c => insertAll ex c (f c)) ex q ↔
      x ∈ ex q ∨ (q ∈ cs ∧ ∃ i ∈ f q, x = (i : Int)) := by
  induction cs with
  | nil => intro ex q x; simp
  | cons c cs ih =>
    intro ex q x
    rw [List.foldl_cons, ih, mem_insertAll]
    simp only [List.mem_cons]
    constructor
    · rintro ((h | ⟨rfl, h⟩) | ⟨h1, h2⟩)
      · exact Or.inl h
      · exact Or.inr ⟨Or.inl rfl, h⟩
      · exact Or.inr ⟨Or.inr h1, h2⟩
    · rintro (h | ⟨rfl | h1, h2⟩)
      · exact Or.inl (Or.inl h)
      · exact Or.inl (Or.inr ⟨rfl, h2⟩)
      · exact Or.inr ⟨h1, h2⟩

theorem mem_codims (a dim q : Nat) : q ∈ codims a dim ↔ a ≤ q ∧ q ≤ dim := by
  unfold codims
  simp only [List.mem_filter, List.mem_range, decide_eq_true_eq]
  omega

/-- Number of (element, local facet) pairs with the element in the domain and the facet `i`. -/
def facetCount (domains : Finset Int) (elems : List Elem) (i : Nat) : Nat :=
  ((elems.filter fun e => decide (e.domain ∈ domains)).map fun e => (e.sub 1).count i).sum

theorem foldl_count (l : List Nat) : ∀ (cnt : Nat → BitVec 8) (i : Nat),
    l.foldl (fun cnt i => Function.update cnt i (cnt i + 1)) cnt i =
      cnt i + BitVec.ofNat 8 (l.count i) := by
  induction l with
  | nil => intro cnt i; simp
  | cons a l ih =>
    intro cnt i
    rw [List.foldl_cons, ih, List.count_cons]
    by_cases h : a = i
    · subst h
      rw [Function.update_self]
      simp only [beq_self_eq_true, if_true]
      rw [BitVec.ofNat_add, BitVec.add_assoc, BitVec.add_comm (BitVec.ofNat 8 _)]
      rfl
    · rw [Function.update_of_ne (Ne.symm h)]; simp [h]

theorem openFold (domains : Finset Int) (dim : Nat) (elems : List Elem) :
    ∀ (st : (Nat → BitVec 8) × (Nat → Finset Int)),
    (∀ i, (elems.foldl (openStep domains dim) st).1 i =
      st.1 i + BitVec.ofNat 8 (facetCount domains elems i)) ∧
    (∀ q x, x ∈ (elems.foldl (openStep domains dim) st).2 q ↔ x ∈ st.2 q ∨
      ∃ e ∈ elems, e.domain ∉ domains ∧ ((q = 0 ∧ x = (e.index : Int)) ∨
        (1 ≤ q ∧ q ≤ dim ∧ ∃ i ∈ e.sub q, x = (i : Int)))) := by
  induction elems with
  | nil => intro st; simp [facetCount]
  | cons e elems ih =>
    intro st
    rw [List.foldl_cons]
    obtain ⟨h1, h2⟩ := ih (openStep domains dim st e)
    by_cases hd : e.domain ∈ domains
    · have e1 : openStep domains dim st e =
          ((e.sub 1).foldl (fun cnt i => Function.update cnt i (cnt i + 1)) st.1, st.2) := by
        unfold openStep; rw [if_pos hd]
      constructor
      · intro i
        rw [h1, e1]
        simp only
        rw [foldl_count]
        have : facetCount domains (e :: elems) i =
            (e.sub 1).count i + facetCount domains elems i := by
          unfold facetCount
          rw [List.filter_cons, if_pos (by simp [hd])]; simp
        rw [this, BitVec.ofNat_add, BitVec.add_assoc]
      · intro q x
        rw [h2, e1]
        simp only [List.mem_cons, exists_eq_or_imp, hd, not_true, false_and, false_or]
    · have e1 : openStep domains dim st e = (st.1, (codims 1 dim).foldl
          (fun ex codim => insertAll ex codim (e.sub codim)) (insertAll st.2 0 [e.index])) := by
        unfold openStep; rw [if_neg hd]
      constructor
      · intro i
        rw [h1, e1]
        have : facetCount domains (e :: elems) i = facetCount domains elems i := by
          unfold facetCount
          rw [List.filter_cons, if_neg (by simp [hd])]
        rw [this]
      · intro q x
        rw [h2, e1]
        simp only
        rw [mem_foldl_insertAll, mem_insertAll, mem_codims]
        simp only [List.mem_cons, exists_eq_or_imp, hd, not_false_eq_true, true_and,
          List.not_mem_nil, false_and, exists_false, or_false, exists_eq_left]
        constructor
        · rintro (((h | h) | ⟨⟨h3, h4⟩, h5⟩) | h)
          · exact Or.inl h
          · exact Or.inr (Or.inl (Or.inl h))
          · exact Or.inr (Or.inl (Or.inr ⟨h3, h4, h5⟩))
          · exact Or.inr (Or.inr h)
        · rintro (h | (h | ⟨h3, h4, h5⟩) | h)
          · exact Or.inl (Or.inl (Or.inl h))
          · exact Or.inl (Or.inl (Or.inr h))
          · exact Or.inl (Or.inr ⟨⟨h3, h4⟩, h5⟩)
          · exact Or.inr h

theorem openChildren_mem (dim : Nat) (bf : List Nat) (e : Elem) (ex : Nat → Finset Int) (q : Nat)
    (x : Int) : x ∈ openChildren dim bf ex e q ↔ x ∈ ex q ∨
      (2 ≤ q ∧ q ≤ dim ∧ ∃ f, ∃ (hf : f < (e.sub 1).length), (e.sub 1)[f] ∈ bf ∧
        ∃ i ∈ e.facetChildren f q, x = (i : Int)) := by
  unfold openChildren
  have gen : ∀ (l : List Nat) (ex : Nat → Finset Int), (∀ f ∈ l, f < (e.sub 1).length) →
      (x ∈ l.foldl (fun ex i =>
        if (e.sub 1)[i]?.getD 0 ∈ bf then
          (codims 2 dim).foldl (fun ex codim => insertAll ex codim (e.facetChildren i codim)) ex
        else ex) ex q ↔ x ∈ ex q ∨
      (2 ≤ q ∧ q ≤ dim ∧ ∃ f ∈ l, ∃ (hf : f < (e.sub 1).length), (e.sub 1)[f] ∈ bf ∧
        ∃ i ∈ e.facetChildren f q, x = (i : Int))) := by
    intro l
    induction l with
    | nil => intro ex _; simp
    | cons a l ih =>
      intro ex hl
      have ha := hl a List.mem_cons_self
      rw [List.foldl_cons, ih _ (fun f hf => hl f (List.mem_cons_of_mem _ hf))]
      rw [List.getElem?_eq_getElem ha, Option.getD_some]
      split
      · rename_i hb
        rw [mem_foldl_insertAll, mem_codims]
        constructor
        · rintro ((h | ⟨⟨h1, h2⟩, h3⟩) | ⟨h1, h2, f, hf, h3⟩)
          · exact Or.inl h
          · exact Or.inr ⟨h1, h2, a, List.mem_cons_self, ha, hb, h3⟩
          · exact Or.inr ⟨h1, h2, f, List.mem_cons_of_mem _ hf, h3⟩
        · rintro (h | ⟨h1, h2, f, hf, hf2, h3, h4⟩)
          · exact Or.inl (Or.inl h)
          · rcases List.mem_cons.mp hf with rfl | hf
            · exact Or.inl (Or.inr ⟨⟨h1, h2⟩, h4⟩)
            · exact Or.inr ⟨h1, h2, f, hf, hf2, h3, h4⟩
      · rename_i hb
        constructor
        · rintro (h | ⟨h1, h2, f, hf, h3⟩)
          · exact Or.inl h
          · exact Or.inr ⟨h1, h2, f, List.mem_cons_of_mem _ hf, h3⟩
        · rintro (h | ⟨h1, h2, f, hf, hf2, h3, h4⟩)
          · exact Or.inl h
          · rcases List.mem_cons.mp hf with rfl | hf
            · exact absurd h3 hb
            · exact Or.inr ⟨h1, h2, f, hf, hf2, h3, h4⟩
  rw [gen _ _ (fun f hf => List.mem_range.mp hf)]
  constructor
  · rintro (h | ⟨h1, h2, f, _, h3⟩)
    · exact Or.inl h
    · exact Or.inr ⟨h1, h2, f, h3⟩
  · rintro (h | ⟨h1, h2, f, hf, h3⟩)
    · exact Or.inl h
    · exact Or.inr ⟨h1, h2, f, List.mem_range.mpr hf, hf, h3⟩

theorem openChildren_fold (dim : Nat) (bf : List Nat) (elems : List Elem) : ∀ (ex : Nat → Finset Int)
    (q : Nat) (x : Int), x ∈ elems.foldl (openChildren dim bf) ex q ↔ x ∈ ex q ∨
      ∃ e ∈ elems, (2 ≤ q ∧ q ≤ dim ∧ ∃ f, ∃ (hf : f < (e.sub 1).length), (e.sub 1)[f] ∈ bf ∧
        ∃ i ∈ e.facetChildren f q, x = (i : Int)) := by
  induction elems with
  | nil => intro ex q x; simp
  | cons e elems ih =>
    intro ex q x
    rw [List.foldl_cons, ih, openChildren_mem]
    simp only [List.mem_cons, exists_eq_or_imp]
    rw [or_assoc]

/-- The excluded entities of an open domain. -/
theorem openDomain_mem (v : View) (domains : Finset Int) (q : Nat) (x : Int) :
    x ∈ (openDomain v domains).excluded q ↔
      (∃ e ∈ v.elems, e.domain ∉ domains ∧ ((q = 0 ∧ x = (e.index : Int)) ∨
        (1 ≤ q ∧ q ≤ v.dim ∧ ∃ i ∈ e.sub q, x = (i : Int)))) ∨
      (q = 1 ∧ ∃ i, i < v.count 1 ∧ facetCount domains v.elems i % 256 = 1 ∧ x = (i : Int)) ∨
      (∃ e ∈ v.elems, 2 ≤ q ∧ q ≤ v.dim ∧ ∃ f, ∃ (hf : f < (e.sub 1).length),
        ((e.sub 1)[f] < v.count 1 ∧ facetCount domains v.elems (e.sub 1)[f] % 256 = 1) ∧
        ∃ i ∈ e.facetChildren f q, x = (i : Int)) := by
  unfold openDomain
  simp only
  obtain ⟨h1, h2⟩ := openFold domains v.dim v.elems (fun _ => 0, fun _ => ∅)
  have hb : ∀ i, (v.elems.foldl (openStep domains v.dim) (fun _ => 0, fun _ => ∅)).1 i = 1 ↔
      facetCount domains v.elems i % 256 = 1 := by
    intro i
    rw [h1]
    simp only
    constructor
    · intro h
      have := congrArg BitVec.toNat h
      simpa using this
    · intro h
      apply BitVec.eq_of_toNat_eq
      simpa using h
  rw [openChildren_fold, mem_insertAll, h2]
  simp only [List.mem_filter, List.mem_range, decide_eq_true_eq, hb, Finset.notMem_empty, false_or]
  constructor
  · rintro ((h | ⟨h3, i, ⟨h4, h5⟩, h6⟩) | h)
    · exact Or.inl h
    · exact Or.inr (Or.inl ⟨h3, i, h4, h5, h6⟩)
    · exact Or.inr (Or.inr h)
  · rintro (h | ⟨h3, i, h4, h5, h6⟩ | h)
    · exact Or.inl (Or.inl h)
    · exact Or.inl (Or.inr ⟨h3, i, ⟨h4, h5⟩, h6⟩)
    · exact Or.inr h

theorem adj_inner (codim : Nat) (l : List Nat) : ∀ (adj : Nat → Nat → Bool) (q i : Nat),
    l.foldl (fun adj i => Function.update adj codim (Function.update (adj codim) i true)) adj q i = true ↔
      adj q i = true ∨ (q = codim ∧ i ∈ l) := by
  induction l with
  | nil => intro adj q i; simp
  | cons a l ih =>
    intro adj q i
    rw [List.foldl_cons, ih]
    by_cases hq : q = codim
    · subst hq
      rw [Function.update_self]
      by_cases hi : i = a
      · subst hi; simp
      · rw [Function.update_of_ne hi]; simp [hi]
    · rw [Function.update_of_ne hq]; simp [hq]

theorem adj_outer (f : Nat → List Nat) (cs : List Nat) : ∀ (adj : Nat → Nat → Bool) (q i : Nat),
    cs.foldl (fun adj codim => (f codim).foldl (fun adj i =>
      Function.update adj codim (Function.update (adj codim) i true)) adj) adj q i = true ↔
      adj q i = true ∨ (q ∈ cs ∧ i ∈ f q) := by
  induction cs with
  | nil => intro adj q i; simp
  | cons c cs ih =>
    intro adj q i
    rw [List.foldl_cons, ih, adj_inner]
    simp only [List.mem_cons]
    constructor
    · rintro ((h | ⟨rfl, h⟩) | ⟨h1, h2⟩)
      · exact Or.inl h
      · exact Or.inr ⟨Or.inl rfl, h⟩
      · exact Or.inr ⟨Or.inr h1, h2⟩
    · rintro (h | ⟨rfl | h1, h2⟩)
      · exact Or.inl (Or.inl h)
      · exact Or.inl (Or.inr ⟨rfl, h2⟩)
      · exact Or.inr ⟨h1, h2⟩

theorem closedFold (domains : Finset Int) (dim : Nat) (elems : List Elem) :
    ∀ (st : (Nat → Nat → Bool) × Finset Int),
    (∀ q i, (elems.foldl (closedStep domains dim) st).1 q i = true ↔ st.1 q i = true ∨
      ∃ e ∈ elems, e.domain ∈ domains ∧ 1 ≤ q ∧ q ≤ dim ∧ i ∈ e.sub q) ∧
    (∀ x, x ∈ (elems.foldl (closedStep domains dim) st).2 ↔ x ∈ st.2 ∨
      ∃ e ∈ elems, e.domain ∉ domains ∧ x = (e.index : Int)) := by
  induction elems with
  | nil => intro st; simp
  | cons e elems ih =>
    intro st
    rw [List.foldl_cons]
    obtain ⟨h1, h2⟩ := ih (closedStep domains dim st e)
    by_cases hd : e.domain ∈ domains
    · have e1 : closedStep domains dim st e = ((codims 1 dim).foldl (fun adj codim =>
          (e.sub codim).foldl (fun adj i =>
            Function.update adj codim (Function.update (adj codim) i true)) adj) st.1, st.2) := by
        unfold closedStep; rw [if_neg (by simpa using hd)]
      constructor
      · intro q i
        rw [h1, e1]
        simp only
        rw [adj_outer, mem_codims]
        simp only [List.mem_cons, exists_eq_or_imp, hd, true_and]
        tauto
      · intro x
        rw [h2, e1]
        simp [hd]
    · have e1 : closedStep domains dim st e = (st.1, insert (e.index : Int) st.2) := by
        unfold closedStep; rw [if_pos hd]
      constructor
      · intro q i
        rw [h1, e1]
        simp [hd]
      · intro x
        rw [h2, e1]
        simp only [Finset.mem_insert, List.mem_cons, exists_eq_or_imp, hd, not_false_eq_true, true_and]
        tauto

theorem closedDomain_mem (v : View) (domains : Finset Int) (q : Nat) (x : Int) :
    x ∈ (closedDomain v domains).excluded q ↔
      (q = 0 ∧ ∃ e ∈ v.elems, e.domain ∉ domains ∧ x = (e.index : Int)) ∨
      (1 ≤ q ∧ q ≤ v.dim ∧ ∃ i, i < v.count q ∧ x = (i : Int) ∧
        ∀ e ∈ v.elems, e.domain ∈ domains → i ∉ e.sub q) := by
  unfold closedDomain
  simp only
  obtain ⟨h1, h2⟩ := closedFold domains v.dim v.elems (fun _ _ => false, ∅)
  by_cases hq : q = 0
  · subst hq
    rw [if_pos rfl, h2]; simp
  · rw [if_neg hq]
    by_cases hqd : q ≤ v.dim
    · rw [if_pos hqd]
      simp only [List.mem_toFinset, List.mem_map, List.mem_filter, List.mem_range, Bool.not_eq_true',
        hq, false_and, false_or]
      constructor
      · rintro ⟨i, ⟨hi, ha⟩, rfl⟩
        refine ⟨by omega, hqd, i, hi, rfl, ?_⟩
        intro e he hd hm
        have := (h1 q i).mpr (Or.inr ⟨e, he, hd, by omega, hqd, hm⟩)
        rw [ha] at this
        cases this
      · rintro ⟨_, _, i, hi, rfl, h⟩
        refine ⟨i, ⟨hi, ?_⟩, rfl⟩
        by_contra hc
        have := (h1 q i).mp (by simpa using hc)
        rcases this with h' | ⟨e, he, hd, _, _, hm⟩
        · simp at h'
        · exact h e he hd hm
    · rw [if_neg hqd]
      simp [hq]
      intro _ h; omega

end Verif.Grid
