import Verif.Lemmas.GridSegment
import Verif.Spec.GridSegment
/-
Properties C29, C30, C57: grid segments.
-/
namespace Verif.Grid

/-! ### C29 -/

/-- **C29** `contains` throws exactly for a codimension outside `0..3`, and never reports an index
outside the grid. -/
theorem C29_contains_total (s : GridSegment) (codim i : Int) :
    (s.contains codim i = .error .invalidArgument ↔ codim < 0 ∨ 3 < codim) ∧
    (s.contains codim i = .ok true → 0 ≤ i ∧ i < s.counts codim.toNat) := by
  constructor
  · unfold GridSegment.contains
    split
    · rename_i h; simp; omega
    · rename_i h; simp; omega
  · intro h
    have := (contains_true s codim i).mp h
    exact ⟨this.2.1, this.2.2.1⟩

/-- **C29** The union contains exactly what one of the operands contains. -/
theorem C29_union (s t : GridSegment) (codim i : Int) (hc : s.counts = t.counts) :
    (s.union_ t).contains codim i = .ok true ↔
      s.contains codim i = .ok true ∨ t.contains codim i = .ok true := by
  simp only [contains_true, GridSegment.union_, hc, Finset.mem_inter]
  tauto

/-- **C29** The intersection contains exactly what both operands contain. -/
theorem C29_intersection (s t : GridSegment) (codim i : Int) (hc : s.counts = t.counts) :
    (s.intersection t).contains codim i = .ok true ↔
      s.contains codim i = .ok true ∧ t.contains codim i = .ok true := by
  simp only [contains_true, GridSegment.intersection, hc, Finset.mem_union]
  tauto

/-- **C29** The complement contains exactly the entities of the grid that the segment does not. -/
theorem C29_complement (s : GridSegment) (hs : s.Valid) (codim i : Int) (h0 : 0 ≤ codim)
    (h3 : codim ≤ 3) (hi : 0 ≤ i) (hi' : i < s.counts codim.toNat) :
    s.complement.contains codim i = .ok true ↔ s.contains codim i = .ok false := by
  have e1 : s.contains codim i = .ok false ↔ ¬ s.contains codim i = .ok true := by
    unfold GridSegment.contains
    rw [if_neg (by omega)]
    simp only [Except.ok.injEq]
    cases (decide (i ≥ 0) && decide (i < s.counts codim.toNat) &&
      decide (i ∉ s.excluded codim.toNat)) <;> simp
  rw [e1]
  simp only [contains_true, complement_mem s _ (hs _)]
  simp only [GridSegment.complement]
  tauto

/-- **C29** The difference contains exactly what the first operand contains and the second does not. -/
theorem C29_difference (s t : GridSegment) (hc : s.counts = t.counts) (ht : t.Valid) (codim i : Int) :
    (s.difference t).contains codim i = .ok true ↔
      s.contains codim i = .ok true ∧ t.contains codim i = .ok false := by
  unfold GridSegment.difference
  rw [C29_intersection s _ codim i (by rw [hc]; rfl)]
  constructor
  · rintro ⟨h1, h2⟩
    have := (contains_true _ _ _).mp h1
    refine ⟨h1, (C29_complement t ht codim i this.1.1 this.1.2 this.2.1 ?_).mp h2⟩
    rw [← hc]; exact this.2.2.1
  · rintro ⟨h1, h2⟩
    have := (contains_true _ _ _).mp h1
    refine ⟨h1, (C29_complement t ht codim i this.1.1 this.1.2 this.2.1 ?_).mpr h2⟩
    rw [← hc]; exact this.2.2.1

/-- **C29** Segments given by entity indices stay so under all operations, which keep the entity counts:
the laws above hold for every expression built from such segments. -/
theorem C29_closed (s t : GridSegment) (hs : s.Valid) (ht : t.Valid) :
    (s.union_ t).Valid ∧ (s.intersection t).Valid ∧ s.complement.Valid ∧ (s.difference t).Valid ∧
    (s.union_ t).counts = s.counts ∧ (s.intersection t).counts = s.counts ∧
    s.complement.counts = s.counts ∧ (s.difference t).counts = s.counts := by
  have hcomp : ∀ u : GridSegment, u.Valid → u.complement.Valid := by
    intro u hu c i hi
    exact ((complement_mem u c (hu c) i).mp hi).1
  have hint : ∀ u w : GridSegment, u.Valid → w.Valid → (u.intersection w).Valid := by
    intro u w hu hw c i hi
    rcases Finset.mem_union.mp hi with h | h
    · exact hu c i h
    · exact hw c i h
  refine ⟨?_, hint s t hs ht, hcomp s hs, hint s _ hs (hcomp t ht), rfl, rfl, rfl, rfl⟩
  intro c i hi
  exact hs c i (Finset.mem_inter.mp hi).1

/-- The validity hypothesis of the complement cannot be dropped: the constructor accepts a negative
index, which `contains` ignores but the merge loop of `complement` stops at. -/
theorem C29_counterexample_invalid_index :
    ∃ s : GridSegment, ∃ i : Int, 0 ≤ i ∧ i < s.counts 0 ∧
      s.contains 0 i = .ok true ∧ s.complement.contains 0 i = .ok true := by
  refine ⟨⟨fun _ => 1, fun _ => {-1}⟩, 0, by decide, by decide, ?_, ?_⟩
  · rw [contains_true]; simp
  · rw [contains_true]
    refine ⟨by decide, by decide, by decide, ?_⟩
    simp [GridSegment.complement, complementLoop]

/-- Non-vacuity of C29: two overlapping segments of a grid of five elements. -/
example : ∃ s t : GridSegment, s.Valid ∧ t.Valid ∧ s.counts = t.counts ∧ s.counts 0 = 5 ∧
    (s.difference t).contains 0 2 = .ok true ∧ s.contains 0 1 = .ok false ∧
    (s.union_ t).contains 0 1 = .ok true ∧ (s.intersection t).contains 0 2 = .ok false := by
  have hs : (⟨fun _ => 5, fun _ => {1}⟩ : GridSegment).Valid := by
    intro c i hi; simp at hi; omega
  have ht : (⟨fun _ => 5, fun _ => {2, 3}⟩ : GridSegment).Valid := by
    intro c i hi; simp at hi; omega
  refine ⟨⟨fun _ => 5, fun _ => {1}⟩, ⟨fun _ => 5, fun _ => {2, 3}⟩, hs, ht, rfl, rfl, ?_, ?_, ?_, ?_⟩
  · exact (C29_difference ⟨fun _ => 5, fun _ => {1}⟩ ⟨fun _ => 5, fun _ => {2, 3}⟩ rfl ht 0 2).mpr
      (by decide)
  · decide
  · decide
  · decide

/-! ### C30 -/

/-- **C30** `closedDomain` contains an entity exactly when it belongs to an element of the domains. -/
theorem C30_closedDomain (v : View) (hv : v.WF) (domains : Finset Int) (codim i : Nat)
    (hc : codim ≤ 3) :
    (closedDomain v domains).contains codim i = .ok true ↔
      codim ≤ v.dim ∧ v.InClosure domains codim i := by
  rw [contains_true, Int.toNat_natCast]
  have hcount : (closedDomain v domains).counts codim = (v.count codim : Int) := rfl
  rw [hcount, closedDomain_mem]
  unfold View.InClosure Elem.Has
  have huniq : ∀ e ∈ v.elems, ∀ e' ∈ v.elems, e.index = e'.index → e = e' := by
    intro e he e' he' h
    exact List.inj_on_of_nodup_map hv.index_nodup he he' h
  constructor
  · rintro ⟨_, _, hi, hn⟩
    push Not at hn
    have hlt : i < v.count codim := by exact_mod_cast hi
    have hdim : codim ≤ v.dim := by
      by_contra hcon
      rw [hv.count_high codim (by omega)] at hlt
      omega
    refine ⟨hdim, ?_⟩
    by_cases h0 : codim = 0
    · obtain ⟨e, he, hh⟩ := hv.covered codim i hdim hlt
      rcases hh with ⟨_, hh⟩ | ⟨hh, _⟩
      · refine ⟨e, he, ?_, Or.inl ⟨h0, hh⟩⟩
        by_contra hd
        exact hn.1 h0 e he hd (by rw [hh])
      · exact absurd h0 hh
    · obtain ⟨e, he, hd, hm⟩ := hn.2 (by omega) hdim i hlt rfl
      exact ⟨e, he, hd, Or.inr ⟨h0, hm⟩⟩
  · rintro ⟨hdim, e, he, hd, hh⟩
    have hlt := hv.has_lt e he codim i hdim hh
    refine ⟨by omega, by omega, by exact_mod_cast hlt, ?_⟩
    rintro (⟨h0, e', he', hd', hx⟩ | ⟨h1, _, j, _, hj, hall⟩)
    · rcases hh with ⟨_, hh⟩ | ⟨hh, _⟩
      · have : e = e' := huniq e he e' he' (by have : (i : Int) = e'.index := hx; omega)
        subst this
        exact hd' hd
      · exact hh h0
    · have hij : i = j := by exact_mod_cast hj
      subst hij
      rcases hh with ⟨h0, _⟩ | ⟨_, hh⟩
      · omega
      · exact hall e he hd hh

theorem facetCount_eq (v : View) (hv : v.WF) (domains : Finset Int) (f : Nat) :
    facetCount domains v.elems f = (v.facetNeighbours domains f).length := by
  unfold facetCount View.facetNeighbours
  have gen : ∀ l : List Elem, (∀ e ∈ l, (e.sub 1).Nodup) →
      ((l.filter fun e => decide (e.domain ∈ domains)).map fun e => (e.sub 1).count f).sum =
      (l.filter fun e => decide (e.domain ∈ domains) && decide (f ∈ e.sub 1)).length := by
    intro l
    induction l with
    | nil => intro _; rfl
    | cons e l ih =>
      intro h
      have hl := ih (fun e he => h e (List.mem_cons_of_mem _ he))
      have hn := h e List.mem_cons_self
      rw [List.filter_cons, List.filter_cons]
      by_cases hd : e.domain ∈ domains
      · by_cases hf : f ∈ e.sub 1
        · simp only [hd, hf, decide_true, if_true, Bool.and_true, List.map_cons, List.sum_cons, hl,
            List.length_cons, List.count_eq_one_of_mem hn hf]
          omega
        · simp only [hd, hf, decide_true, decide_false, if_true, Bool.and_false, List.map_cons,
            List.sum_cons, hl, List.count_eq_zero_of_not_mem hf, Bool.false_eq_true, if_false]
          omega
      · simp only [hd, decide_false, Bool.false_and, Bool.false_eq_true, if_false, hl]
  exact gen _ hv.facets_nodup

/-- **C30 (partial)** `openDomain` contains an entity exactly when it belongs to the closure of the
domains and not to their boundary, provided no facet is shared by more than 256 elements of the
domains (the counter is an `unsigned char`; the hypothesis is needed, see
`C30_counterexample_counter`). -/
theorem C30_openDomain_partial (v : View) (hv : v.WF) (domains : Finset Int)
    (hfew : ∀ f, (v.facetNeighbours domains f).length ≤ 256)
    (codim i : Nat) (hc : codim ≤ 3) :
    (openDomain v domains).contains codim i = .ok true ↔
      codim ≤ v.dim ∧ v.InClosure domains codim i ∧ ¬ v.OnBoundary domains codim i := by
  rw [contains_true, Int.toNat_natCast]
  have hcount : (openDomain v domains).counts codim = (v.count codim : Int) := rfl
  have hmod : ∀ f, facetCount domains v.elems f % 256 = 1 ↔
      (v.facetNeighbours domains f).length = 1 := by
    intro f
    rw [facetCount_eq v hv]
    have := hfew f
    omega
  rw [hcount, openDomain_mem]
  simp only [hmod]
  constructor
  · rintro ⟨_, _, hi, hn⟩
    have hlt : i < v.count codim := by exact_mod_cast hi
    have hdim : codim ≤ v.dim := by
      by_contra hcon
      rw [hv.count_high codim (by omega)] at hlt
      omega
    push Not at hn
    obtain ⟨hn1, hn2, hn3⟩ := hn
    have hout : ∀ e ∈ v.elems, e.Has codim i → e.domain ∈ domains := by
      intro e he hh
      by_contra hd
      have := hn1 e he hd
      rcases hh with ⟨h0, hh⟩ | ⟨h0, hh⟩
      · exact this.1 h0 (by rw [hh])
      · exact this.2 (by omega) hdim i hh rfl
    refine ⟨hdim, ?_, ?_⟩
    · obtain ⟨e, he, hh⟩ := hv.covered codim i hdim hlt
      exact ⟨e, he, hout e he hh, hh⟩
    · rintro (⟨e, he, hd, hh⟩ | ⟨h1, hl⟩ | ⟨h2, f, hl, e, he, k, hk, hm⟩)
      · exact hd (hout e he hh)
      · subst h1
        exact hn2 rfl i hlt hl rfl
      · obtain ⟨hk1, hk2⟩ := List.getElem?_eq_some_iff.mp hk
        refine hn3 e he h2 hdim k hk1 ?_ i hm rfl
        rw [hk2]
        refine ⟨?_, hl⟩
        refine hv.has_lt e he 1 f (by omega) (Or.inr ⟨by omega, ?_⟩)
        rw [← hk2]; exact List.getElem_mem _
  · rintro ⟨hdim, ⟨e, he, hd, hh⟩, hb⟩
    have hlt := hv.has_lt e he codim i hdim hh
    refine ⟨by omega, by omega, by exact_mod_cast hlt, ?_⟩
    rintro (⟨e', he', hd', hx⟩ | ⟨h1, j, hj, hl, hij⟩ | ⟨e', he', h2, _, k, hk, ⟨_, hl⟩, j, hm, hij⟩)
    · apply hb
      refine Or.inl ⟨e', he', hd', ?_⟩
      rcases hx with ⟨h0, hx⟩ | ⟨h1, _, j, hj, hx⟩
      · exact Or.inl ⟨h0, by have : (i : Int) = e'.index := hx; omega⟩
      · have : i = j := by exact_mod_cast hx
        subst this
        exact Or.inr ⟨by omega, hj⟩
    · have : i = j := by exact_mod_cast hij
      subst this
      exact hb (Or.inr (Or.inl ⟨h1, hl⟩))
    · have : i = j := by exact_mod_cast hij
      subst this
      exact hb (Or.inr (Or.inr ⟨h2, (e'.sub 1)[k], hl, e', he', k,
        List.getElem?_eq_getElem hk, hm⟩))

/-- A book of `n` triangular pages: triangle `i` has vertices `0, 1, i+2`; the spine is edge 0. -/
def book (n : Nat) : View where
  dim := 2
  count := fun c => if c = 0 then n else if c = 1 then 2 * n + 1 else if c = 2 then n + 2 else 0
  elems := (List.range n).map fun i => {
    index := i, domain := 1,
    sub := fun c => if c = 1 then [0, 2 * i + 1, 2 * i + 2] else if c = 2 then [0, 1, i + 2] else [],
    facetChildren := fun k c => if c = 2 then
      (if k = 0 then [0, 1] else if k = 1 then [0, i + 2] else [1, i + 2]) else [] }

theorem book_WF (n : Nat) (hn : 0 < n) : (book n).WF where
  dim_le := by simp [book]
  count_high := by
    intro c hc
    have : 2 < c := hc
    simp only [book]
    rw [if_neg (by omega), if_neg (by omega), if_neg (by omega)]
  index_nodup := by
    simp only [book, List.map_map, Function.comp_def]
    simpa using List.nodup_range
  has_lt := by
    intro e he c i hc hh
    simp only [book, List.mem_map, List.mem_range] at he
    obtain ⟨j, hj, rfl⟩ := he
    have hc' : c ≤ 2 := hc
    rcases hh with ⟨rfl, hh⟩ | ⟨h0, hh⟩
    · simp only [book] at *; simp; omega
    · obtain rfl | rfl : c = 1 ∨ c = 2 := by omega
      · simp [book] at *; omega
      · simp [book] at *; omega
  covered := by
    intro c i hc hi
    have hc' : c ≤ 2 := hc
    obtain rfl | rfl | rfl : c = 0 ∨ c = 1 ∨ c = 2 := by omega
    · refine ⟨_, List.mem_map.mpr ⟨i, List.mem_range.mpr hi, rfl⟩, Or.inl ⟨rfl, rfl⟩⟩
    · simp [book] at hi
      refine ⟨_, List.mem_map.mpr ⟨(i - 1) / 2, List.mem_range.mpr (by omega), rfl⟩,
        Or.inr ⟨by omega, ?_⟩⟩
      simp; omega
    · simp [book] at hi
      refine ⟨_, List.mem_map.mpr ⟨i - 2, List.mem_range.mpr (by omega), rfl⟩,
        Or.inr ⟨by omega, ?_⟩⟩
      simp; omega
  facets_nodup := by
    intro e he
    simp only [book, List.mem_map, List.mem_range] at he
    obtain ⟨j, hj, rfl⟩ := he
    simp

theorem book_spine (n : Nat) : ((book n).facetNeighbours {1} 0).length = n := by
  unfold View.facetNeighbours
  rw [List.filter_eq_self.mpr]
  · simp [book]
  · intro e he
    simp only [book, List.mem_map, List.mem_range] at he
    obtain ⟨j, hj, rfl⟩ := he
    simp

/-- **C30** fails in general: in a book of 257 (or 513, ...) pages the spine is an inner edge of the
domain (it belongs to 257 elements of the domain and to none outside), but the 8-bit counter wraps to 1
and `openDomain` drops it. -/
theorem C30_counterexample_counter (n : Nat) (hn : 1 < n) (hmod : n % 256 = 1) :
    (book n).WF ∧ (book n).InClosure {1} 1 0 ∧ ¬ (book n).OnBoundary {1} 1 0 ∧
    (openDomain (book n) {1}).contains 1 0 = .ok false := by
  have hwf := book_WF n (by omega)
  have hdom : ∀ e ∈ (book n).elems, e.domain = 1 := by
    intro e he
    simp only [book, List.mem_map, List.mem_range] at he
    obtain ⟨j, hj, rfl⟩ := he
    rfl
  refine ⟨hwf, ?_, ?_, ?_⟩
  · exact ⟨_, List.mem_map.mpr ⟨0, List.mem_range.mpr (by omega), rfl⟩, by simp,
      Or.inr ⟨by decide, by simp⟩⟩
  · rintro (⟨e, he, hd, _⟩ | ⟨_, h⟩ | ⟨h, _⟩)
    · rw [hdom e he] at hd; simp at hd
    · rw [book_spine] at h; omega
    · omega
  · have hx : (0 : Int) ∈ (openDomain (book n) {1}).excluded 1 := by
      rw [openDomain_mem]
      refine Or.inr (Or.inl ⟨rfl, 0, ?_, ?_, rfl⟩)
      · simp [book]
      · rw [facetCount_eq _ hwf, book_spine, hmod]
    generalize openDomain (book n) {1} = s at hx
    unfold GridSegment.contains
    rw [if_neg (by omega)]
    have : decide ((0 : Int) ∉ s.excluded (1 : Int).toNat) = false :=
      decide_eq_false (fun h => h hx)
    rw [this, Bool.and_false]

example : ∃ n, 1 < n ∧ n % 256 = 1 := ⟨257, by decide, by decide⟩

/-- Non-vacuity of C30: in a book of two pages the spine is an inner edge and is kept, the outer edge 1
is on the boundary and dropped by the open but kept by the closed segment. -/
example : (book 2).WF ∧ (∀ f, ((book 2).facetNeighbours {1} f).length ≤ 256) ∧
    (openDomain (book 2) {1}).contains 1 0 = .ok true ∧
    (openDomain (book 2) {1}).contains 1 1 = .ok false ∧
    (closedDomain (book 2) {1}).contains 1 1 = .ok true := by
  have hfew : ∀ f, ((book 2).facetNeighbours {1} f).length ≤ 256 := by
    intro f
    refine le_trans (List.length_filter_le _ _) ?_
    simp [book]
  exact ⟨book_WF 2 (by decide), hfew, by decide, by decide, by decide⟩

/-! ### C57 -/

/-- **C57 (partial)** `gridSegmentWithPositiveX(grid, level)` contains exactly the entities of the
requested view whose center has positive `x`, provided the requested view has the same entity counts
as the level-0 view (always so for `level = 0` and for unrefined grids). -/
theorem C57_positiveX_partial {R : Type} [LinearOrder R] [Zero R] (view level0 : View) (hv : view.WF)
    (hdim : view.dim ≤ 2) (hsame : ∀ c, view.count c = level0.count c) (centerX : Nat → Nat → R)
    (codim i : Nat) (hc : codim ≤ 3) :
    (gridSegmentWithPositiveX view level0 centerX).contains codim i = .ok true ↔
      codim ≤ view.dim ∧ i < view.count codim ∧ 0 < centerX codim i := by
  rw [contains_true, Int.toNat_natCast]
  have hcount : (gridSegmentWithPositiveX view level0 centerX).counts codim = (view.count codim : Int) := by
    rw [hsame]; rfl
  rw [hcount]
  have hex : ((i : Int) ∈ (gridSegmentWithPositiveX view level0 centerX).excluded codim) ↔
      codim ≤ 2 ∧ i < view.count codim ∧ centerX codim i ≤ 0 := by
    unfold gridSegmentWithPositiveX
    simp only
    split
    · rename_i h
      simp only [List.mem_toFinset, List.mem_map, List.mem_filter, List.mem_range,
        decide_eq_true_eq, Nat.cast_inj]
      constructor
      · rintro ⟨j, ⟨h1, h2⟩, rfl⟩; exact ⟨h, h1, h2⟩
      · rintro ⟨_, h1, h2⟩; exact ⟨i, ⟨h1, h2⟩, rfl⟩
    · rename_i h
      simp [h]
  rw [hex]
  constructor
  · rintro ⟨_, _, h1, h2⟩
    have hlt : i < view.count codim := by exact_mod_cast h1
    have hle : codim ≤ view.dim := by
      by_contra hcon
      rw [hv.count_high codim (by omega)] at hlt
      omega
    refine ⟨hle, hlt, ?_⟩
    rw [← not_le]
    exact fun h => h2 ⟨by omega, hlt, h⟩
  · rintro ⟨h1, h2, h3⟩
    refine ⟨by omega, by omega, by exact_mod_cast h2, ?_⟩
    rintro ⟨_, _, h⟩
    exact absurd h3 (not_lt.mpr h)

/-- **C57** fails for the view of a refined grid: the counts are taken from the level-0 view, so
entities with larger indices are never contained.  Here the grid is refined from one page to two and
everything has positive `x`. -/
theorem C57_counterexample : (book 2).WF ∧ (book 1).WF ∧
    (1 < (book 2).count 0) ∧
    (gridSegmentWithPositiveX (book 2) (book 1) (fun _ _ => (1 : Int))).contains 0 1 = .ok false := by
  refine ⟨book_WF 2 (by decide), book_WF 1 (by decide), by decide, ?_⟩
  decide

/-- Non-vacuity of C57: element 1 of two has positive `x`, element 0 has not. -/
example : (book 2).WF ∧
    (gridSegmentWithPositiveX (book 2) (book 2) (fun _ i => (i : Int))).contains 0 1 = .ok true ∧
    (gridSegmentWithPositiveX (book 2) (book 2) (fun _ i => (i : Int))).contains 0 0 = .ok false :=
  ⟨book_WF 2 (by decide), by decide, by decide⟩

/-! ### C58 -/

theorem foldl_set_length (l : List Int) (mark : Int) : ∀ marks : List Int,
    (l.foldl (fun (marks : List Int) i => if 0 ≤ i then marks.set i.toNat mark else marks)
      marks).length = marks.length := by
  induction l with
  | nil => intro _; rfl
  | cons a l ih =>
    intro marks
    rw [List.foldl_cons, ih]
    split <;> simp

theorem foldl_set_get (l : List Int) (mark : Int) (k : Nat) : ∀ marks : List Int, k < marks.length →
    (l.foldl (fun (marks : List Int) i => if 0 ≤ i then marks.set i.toNat mark else marks) marks)[k]? =
      if (k : Int) ∈ l then some mark else marks[k]? := by
  induction l with
  | nil => intro marks _; simp
  | cons a l ih =>
    intro marks hk
    rw [List.foldl_cons]
    by_cases ha : 0 ≤ a
    · rw [if_pos ha, ih _ (by simpa using hk)]
      by_cases hm : (k : Int) ∈ l
      · rw [if_pos hm, if_pos (List.mem_cons_of_mem _ hm)]
      · rw [if_neg hm]
        by_cases hka : (k : Int) = a
        · rw [if_pos (by rw [hka]; exact List.mem_cons_self)]
          subst hka
          rw [Int.toNat_natCast, List.getElem?_set_self hk]
        · rw [if_neg (by simp [hka, hm]), List.getElem?_set_ne (by omega)]
    · rw [if_neg ha, ih _ hk]
      have : (k : Int) ≠ a := by omega
      simp [this]

/-- **C58** `markExcludedEntities` gives a vector with one entry per entity of the grid: `mark` for the
entities outside the segment and 0 for those inside. -/
theorem C58_markExcludedEntities (s : GridSegment) (codim mark : Int) (h0 : 0 ≤ codim) (h3 : codim ≤ 3) :
    ∃ marks, s.markExcludedEntities codim mark = .ok marks ∧
      marks.length = (s.counts codim.toNat).toNat ∧
      ∀ k : Nat, (k : Int) < s.counts codim.toNat →
        (s.contains codim k = .ok true → marks[k]? = some 0) ∧
        (s.contains codim k = .ok false → marks[k]? = some mark) := by
  unfold GridSegment.markExcludedEntities
  rw [if_neg (by omega)]
  refine ⟨_, rfl, ?_, ?_⟩
  · rw [foldl_set_length]; simp
  · intro k hk
    rw [foldl_set_get _ _ _ _ (by simp; omega)]
    simp only [Finset.mem_sort]
    constructor
    · intro h
      rw [if_neg ((contains_true _ _ _).mp h).2.2.2]
      rw [List.getElem?_replicate, if_pos (by omega)]
    · intro h
      rw [if_pos]
      by_contra hc
      have := (contains_true s codim k).mpr ⟨⟨h0, h3⟩, by omega, hk, hc⟩
      rw [h] at this
      cases this

/-- Non-vacuity of C58. -/
example : (⟨fun _ => 3, fun _ => {1}⟩ : GridSegment).contains 0 1 = .ok false ∧
    (⟨fun _ => 3, fun _ => {1}⟩ : GridSegment).contains 0 2 = .ok true := by decide

end Verif.Grid
