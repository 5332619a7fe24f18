import Verif.Model.PyGrid
import Verif.Props.GridFactory
/-
Property C106: the grid factory of the Python interface, the union of grids, and copies of grids.
-/
namespace Verif.PyGrid
open Verif.Grid

/-! ### Specification -/

/-- A grid as the factories make it: vertex indices in range, one domain index per element, and the
connectivity tables of its own elements. -/
structure GridOk {K : Type} (g : GridData K) : Prop where
  range : ∀ t ∈ g.data.elements, ∀ v ∈ t.verts, v < g.nodes.length
  domains : g.domains.length = g.data.elements.length
  tables : DataContainer.init g.nodes.length g.data.elements = some g.data

/-- The triangle with `k` added to each vertex index. -/
def shift (k : Nat) (t : Tri) : Tri := ⟨t.a + k, t.b + k, t.c + k⟩

/-- The vertices, and the elements with their domain indices, that a program inserts. -/
def insertedVertices {K : Type} : List (Call K) → List (P3 K)
  | [] => []
  | .insertVertex v :: cs => v :: insertedVertices cs
  | _ :: cs => insertedVertices cs

def insertedElements {K : Type} : List (Call K) → List (Tri × Int)
  | [] => []
  | .insertElement t d :: cs => (t, d) :: insertedElements cs
  | _ :: cs => insertedElements cs

/-- The call is an insertion. -/
def Call.IsInsert {K : Type} : Call K → Prop
  | .finalize => False
  | _ => True

/-! ### Raw data -/

theorem set_fold_getAny {α : Type} (f : Nat → α) (n : Nat) : ∀ (out : List α),
    (((List.range n).foldl (fun (out : List α) i => out.set i (f i)) out).length = out.length) ∧
    ∀ k, k < out.length →
    ((List.range n).foldl (fun (out : List α) i => out.set i (f i)) out)[k]? =
      if k < n then some (f k) else out[k]? := by
  induction n with
  | zero => intro out; simp
  | succ n ih =>
    intro out
    obtain ⟨h1, h2⟩ := ih out
    rw [List.range_succ, List.foldl_append]
    simp only [List.foldl_cons, List.foldl_nil]
    refine ⟨by rw [List.length_set, h1], ?_⟩
    intro k hk
    by_cases hkn : n = k
    · subst hkn
      rw [List.getElem?_set_self (by rw [h1]; exact hk), if_pos (by omega)]
    · rw [List.getElem?_set_ne hkn, h2 k hk]
      by_cases h : k < n
      · rw [if_pos h, if_pos (by omega)]
      · rw [if_neg h, if_neg (by omega)]

theorem writeAll_eq {α : Type} (n : Nat) (f : Nat → α) (init : List α) (h : init.length = n) :
    writeAll n f init = (List.range n).map f := by
  unfold writeAll
  obtain ⟨h1, h2⟩ := set_fold_getAny f n init
  apply List.ext_getElem?
  intro k
  by_cases hk : k < n
  · rw [h2 k (by omega), if_pos hk]
    simp [hk]
  · rw [List.getElem?_eq_none (by omega), List.getElem?_eq_none (by simp; omega)]

theorem map_getD_range {α β : Type} (l : List α) (f : α → β) (d : α) :
    (List.range l.length).map (fun i => f (l.getD i d)) = l.map f := by
  apply List.ext_getElem?
  intro k
  by_cases hk : k < l.length
  · simp [hk]
  · rw [List.getElem?_eq_none (by simpa using hk), List.getElem?_eq_none (by simpa using hk)]

theorem viewVertices_eq {K : Type} (g : GridData K) (junk : P3 K) : viewVertices g junk = g.nodes := by
  unfold viewVertices
  rw [writeAll_eq _ _ _ (by simp)]
  simpa using map_getD_range g.nodes id junk

theorem viewElements_eq {K : Type} (g : GridData K) :
    viewElements g = g.data.elements.map fun t => [(t.a : Int), t.b, t.c] := by
  unfold viewElements
  rw [writeAll_eq _ _ _ (by simp), map_getD_range, List.map_map]
  rfl

theorem viewDomains_eq {K : Type} (g : GridData K) (h : g.domains.length = g.data.elements.length) :
    viewDomains g = g.domains := by
  unfold viewDomains
  rw [writeAll_eq _ _ _ (by simp), ← h]
  simpa using map_getD_range g.domains id 0

/-- **C106** `vertices`, `elements` and `domain_indices` of the view of a grid are the arrays it was made
from, in the order of the indices. -/
theorem C106_view_data {K : Type} (g : GridData K) (hg : GridOk g) (junk : P3 K) :
    viewVertices g junk = g.nodes ∧
    (∀ (e : Nat) (t : Tri), g.data.elements[e]? = some t →
      (viewElements g)[e]? = some [(t.a : Int), t.b, t.c]) ∧
    (viewElements g).length = g.data.elements.length ∧
    viewDomains g = g.domains := by
  refine ⟨viewVertices_eq g junk, ?_, by rw [viewElements_eq]; simp, viewDomains_eq g hg.domains⟩
  intro e t h
  rw [viewElements_eq, List.getElem?_map, h]
  rfl

/-! ### clone -/

theorem asThreeRows_three {α : Type} (m : Mat α) (junk : α) (h : m.rows = 3) :
    ∃ m', asThreeRows m junk = some m' ∧ m'.rows = 3 ∧ m'.cols = m.cols ∧
      ∀ r < 3, ∀ j, m'.at_ r j = m.at_ r j := by
  unfold asThreeRows
  rw [h, if_pos (le_refl _)]
  refine ⟨_, rfl, rfl, rfl, ?_⟩
  intro r hr j
  show (if 0 < 3 then m.at_ ((r + 3 * j) % 3) ((r + 3 * j) / 3) else junk) = _
  rw [if_pos (by omega)]
  congr 1 <;> omega

/-- **C106** For `3 × n` arrays, `grid_from_element_data` makes the grid with exactly these vertices,
elements and domain indices (0 if none are given), or raises; it raises exactly if an array is empty, the
number of domain indices is neither 0 nor that of the elements, or a vertex index is out of range. -/
theorem C106_from_element_data {K : Type} (vertices : Mat K) (elements : Mat Int) (dom : List Int) (junk : K)
    (hv : vertices.rows = 3) (he : elements.rows = 3) :
    ((vertices.cols = 0 ∨ elements.cols = 0 ∨ (dom ≠ [] ∧ dom.length ≠ elements.cols) ∨
        ∃ i < elements.cols, ∃ r < 3, elements.at_ r i < 0 ∨ (vertices.cols : Int) ≤ elements.at_ r i) ∧
      ∃ e, gridFromElementData vertices elements dom junk = .error e ∧ e ≠ .ub) ∨
    (¬(vertices.cols = 0 ∨ elements.cols = 0 ∨ (dom ≠ [] ∧ dom.length ≠ elements.cols) ∨
        ∃ i < elements.cols, ∃ r < 3, elements.at_ r i < 0 ∨ (vertices.cols : Int) ≤ elements.at_ r i) ∧
      ∃ g, gridFromElementData vertices elements dom junk = .ok g ∧ GridOk g ∧
        g.nodes.length = vertices.cols ∧
        (∀ i < vertices.cols, g.nodes[i]? =
          some ⟨vertices.at_ 0 i, vertices.at_ 1 i, vertices.at_ 2 i⟩) ∧
        g.data.elements.length = elements.cols ∧
        (∀ i < elements.cols, ∃ t, g.data.elements[i]? = some t ∧ (t.a : Int) = elements.at_ 0 i ∧
          (t.b : Int) = elements.at_ 1 i ∧ (t.c : Int) = elements.at_ 2 i) ∧
        g.domains = if dom = [] then List.replicate elements.cols 0 else dom) := by
  obtain ⟨v', hv1, hv2, hv3, hv4⟩ := asThreeRows_three vertices junk hv
  obtain ⟨e', he1, he2, he3, he4⟩ := asThreeRows_three elements 0 he
  unfold gridFromElementData
  by_cases hz : vertices.cols = 0 ∨ elements.cols = 0
  · left
    refine ⟨by tauto, .indexError, ?_, by decide⟩
    rw [if_pos (by tauto)]
  rw [if_neg (by omega), hv1, he1]
  dsimp only
  have hthrow := C33_throws_iff true v' e' dom
  have hex : (∃ i < e'.cols, ∃ r < 3, e'.at_ r i < 0 ∨ (v'.cols : Int) ≤ e'.at_ r i) ↔
      ∃ i < elements.cols, ∃ r < 3, elements.at_ r i < 0 ∨ (vertices.cols : Int) ≤ elements.at_ r i := by
    rw [hv3, he3]
    constructor
    · rintro ⟨i, hi, r, hr, h⟩; exact ⟨i, hi, r, hr, by rwa [he4 r hr] at h⟩
    · rintro ⟨i, hi, r, hr, h⟩; exact ⟨i, hi, r, hr, by rwa [he4 r hr]⟩
  rw [hex, he3, hv2, he2] at hthrow
  push Not at hz
  rcases C33_exact true v' e' dom with h | ⟨g, hg, h1, h2, h3, h4, h5, h6, h7, h8, h9⟩
  · left
    refine ⟨?_, .runtimeError, by rw [h], by decide⟩
    have := hthrow.mp h
    simp at this
    rcases this with h | ⟨i, hi, r, hr, h⟩
    · exact Or.inr (Or.inr (Or.inl h))
    · exact Or.inr (Or.inr (Or.inr ⟨i, hi, r, hr, h⟩))
  · right
    rw [hv3] at h1 h2 h3 h9
    rw [he3] at h4 h5 h6 h7
    refine ⟨?_, g, by rw [hg], ?_, h1, ?_, h4, ?_, ?_⟩
    · intro hc
      have : createGridFromConnectivityArrays true v' e' dom = .error .invalidArgument := by
        apply hthrow.mpr
        rcases hc with h | h | h | h
        · exact absurd h hz.1
        · exact absurd h hz.2
        · exact Or.inr (Or.inr (Or.inr (Or.inl h)))
        · exact Or.inr (Or.inr (Or.inr (Or.inr h)))
      rw [hg] at this
      cases this
    · refine ⟨?_, by rw [h6, h4], by rw [h1]; exact h9⟩
      rw [h1]
      exact init_valid _ _ _ _ h9
    · intro i hi
      rw [h3 i hi, hv4 0 (by omega), hv4 1 (by omega), hv4 2 (by omega)]
    · intro i hi
      obtain ⟨t, a, b, c, d⟩ := h5 i hi
      rw [he4 0 (by omega)] at b
      rw [he4 1 (by omega)] at c
      rw [he4 2 (by omega)] at d
      exact ⟨t, a, b, c, d⟩
    · by_cases hd : dom = []
      · rw [if_pos hd]
        apply List.ext_getElem?
        intro k
        by_cases hk : k < elements.cols
        · rw [h7 hd k hk]; simp [hk]
        · rw [List.getElem?_eq_none (by omega), List.getElem?_eq_none (by simp; omega)]
      · rw [if_neg hd]; exact h8 hd

/-- **C106** A copy of a grid with at least one element is a grid with the same vertices, elements, domain
indices and connectivity. -/
theorem C106_clone {K : Type} (g : GridData K) (hg : GridOk g) (hne : g.data.elements ≠ []) (junk : P3 K) :
    ∃ g', clone g junk = .ok g' ∧ g'.nodes = g.nodes ∧ g'.data = g.data ∧ g'.domains = g.domains := by
  have hl : 0 < g.data.elements.length := List.length_pos_iff.mpr hne
  obtain ⟨t0, ht0⟩ := List.exists_mem_of_ne_nil _ hne
  have hn : 0 < g.nodes.length := by
    have := hg.range t0 ht0 t0.a (by simp [Tri.verts])
    omega
  unfold clone
  rw [viewVertices_eq, viewElements_eq, viewDomains_eq g hg.domains]
  have hdom : g.domains ≠ [] := by
    intro h
    have := hg.domains
    rw [h] at this
    simp at this
    omega
  rcases C106_from_element_data (columns 3 (g.nodes.map fun p => [p.x, p.y, p.z]) junk.x)
    (columns 3 (g.data.elements.map fun t => [(t.a : Int), t.b, t.c]) 0) g.domains junk.x rfl rfl with
    ⟨h, -⟩ | ⟨-, g', h, hok, h1, h2, h3, h4, h5⟩
  · exfalso
    have hc1 : (columns 3 (g.nodes.map fun p => [p.x, p.y, p.z]) junk.x).cols = g.nodes.length := by
      simp [columns]
    have hc2 : (columns 3 (g.data.elements.map fun t => [(t.a : Int), t.b, t.c]) 0).cols =
        g.data.elements.length := by simp [columns]
    rw [hc1, hc2] at h
    rcases h with h | h | ⟨-, h⟩ | ⟨i, hi, r, hr, h⟩
    · omega
    · omega
    · exact h hg.domains
    · have hm := hg.range _ (List.getElem_mem hi)
      simp only [Tri.verts, List.mem_cons, List.not_mem_nil, or_false, forall_eq_or_imp,
        forall_eq] at hm
      obtain ⟨m1, m2, m3⟩ := hm
      have : r = 0 ∨ r = 1 ∨ r = 2 := by omega
      rcases this with rfl | rfl | rfl <;> simp [columns, hi] at h <;> omega
  · have hc1 : (columns 3 (g.nodes.map fun p => [p.x, p.y, p.z]) junk.x).cols = g.nodes.length := by
      simp [columns]
    have hc2 : (columns 3 (g.data.elements.map fun t => [(t.a : Int), t.b, t.c]) 0).cols =
        g.data.elements.length := by simp [columns]
    rw [hc1] at h1 h2
    rw [hc2] at h3 h4
    have hnodes : g'.nodes = g.nodes := by
      apply List.ext_getElem?
      intro k
      by_cases hk : k < g.nodes.length
      · rw [h2 k hk, List.getElem?_eq_getElem hk]
        simp [columns, hk]
      · rw [List.getElem?_eq_none (by omega), List.getElem?_eq_none (by omega)]
    have hels : g'.data.elements = g.data.elements := by
      apply List.ext_getElem?
      intro k
      by_cases hk : k < g.data.elements.length
      · obtain ⟨t, ht, ha, hb, hc⟩ := h4 k hk
        rw [ht, List.getElem?_eq_getElem hk]
        simp [columns, hk] at ha hb hc
        congr 1
        cases t
        cases hT : g.data.elements[k]
        simp_all
      · rw [List.getElem?_eq_none (by omega), List.getElem?_eq_none (by omega)]
    refine ⟨g', h, hnodes, ?_, ?_⟩
    · have t1 := hok.tables
      rw [hnodes, hels, hg.tables] at t1
      exact (Option.some.inj t1).symm
    · rw [h5, if_neg hdom]

/-- **C106, counterexample** A grid without elements is valid (a factory makes it), but cannot be copied:
`IndexError`. -/
theorem C106_counterexample_clone_empty {K : Type} (g : GridData K) (h : g.data.elements = []) (junk : P3 K) :
    clone g junk = .error .indexError := by
  unfold clone gridFromElementData
  rw [viewElements_eq, h]
  simp [columns]

/-- **C106, counterexample** Arrays of the transposed shape (`n × 3`, one vertex per row) are accepted: the
first nine numbers, column by column, are taken as three vertices, whatever `n ≥ 3` is. -/
theorem C106_counterexample_transposed {K : Type} (vertices : Mat K) (elements : Mat Int) (junk : K)
    (hv : vertices.rows ≥ 3) (hc : vertices.cols = 3) (he : elements.rows = 3) (hec : elements.cols = 1)
    (hr : ∀ r < 3, 0 ≤ elements.at_ r 0 ∧ elements.at_ r 0 < 3) :
    ∃ g, gridFromElementData vertices elements [] junk = .ok g ∧ g.nodes.length = 3 ∧
      g.nodes[0]? = some ⟨vertices.at_ 0 0, vertices.at_ 1 0, vertices.at_ 2 0⟩ := by
  obtain ⟨e', he1, he2, he3, he4⟩ := asThreeRows_three elements 0 he
  obtain ⟨v', hv', hv1, hv2, hv3⟩ : ∃ v', asThreeRows vertices junk = some v' ∧ v'.rows = 3 ∧ v'.cols = 3 ∧
      ∀ r < 3, v'.at_ r 0 = vertices.at_ r 0 := by
    unfold asThreeRows
    rw [if_pos (by rw [hc]; omega)]
    refine ⟨_, rfl, rfl, hc, ?_⟩
    intro r hr
    show (if 0 < vertices.rows then vertices.at_ ((r + 3 * 0) % vertices.rows) ((r + 3 * 0) / vertices.rows)
      else junk) = _
    rw [if_pos (by omega), Nat.mul_zero, Nat.add_zero, Nat.mod_eq_of_lt (by omega),
      Nat.div_eq_of_lt (by omega)]
  unfold gridFromElementData
  rw [if_neg (by omega), hv', he1]
  dsimp only
  rcases C33_exact true v' e' [] with h | ⟨g, hg, h1, h2, h3, -⟩
  · exfalso
    rcases (C33_throws_iff true v' e' []).mp h with h | h | h | h | ⟨i, hi, r, hr', h⟩
    · cases h
    · exact h hv1
    · omega
    · exact h.1 rfl
    · rw [he3, hec] at hi
      obtain rfl : i = 0 := by omega
      rw [he4 r hr', hv2] at h
      have := hr r hr'
      omega
  · refine ⟨g, by rw [hg], by rw [h1, hv2], ?_⟩
    rw [h3 0 (by omega), hv3 0 (by omega), hv3 1 (by omega), hv3 2 (by omega)]

/-! ### The factory -/

theorem runCalls_append {K : Type} (cs ds : List (Call K)) : ∀ w : World K,
    runCalls w (cs ++ ds) = match runCalls w cs with
      | .ok w' => runCalls w' ds
      | .error e => .error e := by
  induction cs with
  | nil => intro w; rfl
  | cons c cs ih =>
    intro w
    show (match step w c with
      | .ok w' => runCalls w' (cs ++ ds)
      | .error e => .error e) = match (match step w c with
        | .ok w' => runCalls w' cs
        | .error e => .error e) with
      | .ok w' => runCalls w' ds
      | .error e => .error e
    cases h : step w c with
    | error e => rfl
    | ok w' => exact ih w'

theorem runCalls_inserts {K : Type} (cs : List (Call K)) (hins : ∀ c ∈ cs, c.IsInsert) : ∀ w : World K,
    w.factory.finalized = false →
    runCalls w cs = .ok ⟨⟨w.factory.nodes ++ insertedVertices cs,
      w.factory.elements ++ (insertedElements cs).map Prod.fst,
      w.factory.domains ++ (insertedElements cs).map Prod.snd, false⟩, w.grids⟩ := by
  induction cs with
  | nil =>
    intro w hf
    cases w with
    | mk f gs =>
      cases f
      simp only at hf
      subst hf
      simp [runCalls, insertedVertices, insertedElements]
  | cons c cs ih =>
    intro w hf
    have ih' := ih (fun c' hc' => hins c' (List.mem_cons_of_mem _ hc'))
    have hc := hins c (List.mem_cons_self ..)
    unfold runCalls
    cases c with
    | insertVertex v =>
      simp only [step, hf, Bool.false_eq_true, if_false]
      rw [ih' _ rfl]
      simp [insertedVertices, insertedElements]
    | insertElement t d =>
      simp only [step, hf, Bool.false_eq_true, if_false]
      rw [ih' _ rfl]
      simp [insertedVertices, insertedElements]
    | finalize => exact absurd hc (by simp [Call.IsInsert])

/-- **C106** A factory that has received any sequence of insertions makes, on `finalize`, the grid with
exactly the inserted vertices, elements and domain indices, in the order of insertion. -/
theorem C106_factory {K : Type} (cs : List (Call K)) (hins : ∀ c ∈ cs, c.IsInsert)
    (hr : ∀ e ∈ insertedElements cs, ∀ v ∈ e.1.verts, v < (insertedVertices cs).length) :
    ∃ w g, runCalls {} (cs ++ [.finalize]) = .ok w ∧ w.grids = [g] ∧ GridOk (w.grid g) ∧
      (w.grid g).nodes = insertedVertices cs ∧
      (w.grid g).data.elements = (insertedElements cs).map Prod.fst ∧
      (w.grid g).domains = (insertedElements cs).map Prod.snd := by
  have hr' : ∀ t ∈ (insertedElements cs).map Prod.fst, ∀ v ∈ t.verts, v < (insertedVertices cs).length := by
    intro t ht
    obtain ⟨e, he, rfl⟩ := List.mem_map.mp ht
    exact hr e he
  obtain ⟨d, hd, -⟩ := init_spec _ _ 0 hr'
  have hfields : d.nnodes = (insertedVertices cs).length ∧
      d.elements = (insertedElements cs).map Prod.fst := by
    unfold DataContainer.init at hd
    simp only [Option.bind_eq_bind, Option.bind_eq_some_iff] at hd
    obtain ⟨⟨st, e2e⟩, -, a, -, b, -, c, -, h⟩ := hd
    cases h
    exact ⟨rfl, rfl⟩
  rw [runCalls_append, runCalls_inserts cs hins {} rfl]
  simp only [List.nil_append, runCalls, step, Bool.false_eq_true, if_false, hd]
  have hd' : ({ d with nnodes := (insertedVertices cs).length,
                       elements := (insertedElements cs).map Prod.fst } : DataContainer) = d := by
    cases d
    simp only at hfields
    obtain ⟨rfl, rfl⟩ := hfields
    rfl
  have hdom : permuteInsertionDomainIndices ((insertedElements cs).map Prod.snd)
      ((insertedElements cs).map Prod.fst).length = (insertedElements cs).map Prod.snd := by
    have := permuteInsertion_eq ((insertedElements cs).map Prod.snd)
    simpa using this
  refine ⟨_, _, rfl, rfl, ⟨hr', ?_, ?_⟩, rfl, rfl, hdom⟩
  · show (permuteInsertionDomainIndices ((insertedElements cs).map Prod.snd)
      ((insertedElements cs).map Prod.fst).length).length = ((insertedElements cs).map Prod.fst).length
    rw [hdom]
    simp
  · show _ = some _
    unfold World.grid
    dsimp only
    rw [hd']
    exact hd

/-- **C106** The factory checks nothing: if some inserted element names a vertex that is not inserted (at
the time of `finalize`), the behaviour of `finalize` is undefined. -/
theorem C106_factory_unchecked {K : Type} (cs : List (Call K)) (hins : ∀ c ∈ cs, c.IsInsert) :
    runCalls {} (cs ++ [.finalize]) = .error .ub ↔
      ¬ ∀ e ∈ insertedElements cs, ∀ v ∈ e.1.verts, v < (insertedVertices cs).length := by
  constructor
  · intro h hr
    obtain ⟨w, g, hw, -⟩ := C106_factory cs hins hr
    rw [hw] at h
    cases h
  · intro h
    rw [runCalls_append, runCalls_inserts cs hins {} rfl]
    simp only [List.nil_append, runCalls, step, Bool.false_eq_true, if_false]
    cases hd : DataContainer.init (insertedVertices cs).length ((insertedElements cs).map Prod.fst) with
    | none => rfl
    | some d =>
      exfalso
      apply h
      intro e he
      exact init_valid _ _ _ d hd _ (List.mem_map_of_mem he)

/-- **C106 (part)** A returned grid stays as it is as long as nothing more is inserted in its factory; the
factory may be finalized again.  Missing: it changes with every later insertion (below). -/
theorem C106_factory_stable_partial {K : Type} (w : World K) (n : Nat) (w' : World K)
    (h : runCalls w (List.replicate n .finalize) = .ok w') (g : Owned) (hg : g ∈ w.grids) :
    g ∈ w'.grids ∧ w'.grid g = w.grid g ∧ ∀ c, w'.entityCount g c = w.entityCount g c := by
  induction n generalizing w with
  | zero =>
    cases h
    exact ⟨hg, rfl, fun c => rfl⟩
  | succ n ih =>
    rw [List.replicate_succ] at h
    unfold runCalls at h
    unfold step at h
    by_cases hf : w.factory.finalized = true
    · rw [if_pos hf] at h
      cases h
    · rw [if_neg hf] at h
      cases hd : DataContainer.init w.factory.nodes.length w.factory.elements with
      | none => rw [hd] at h; cases h
      | some d =>
        rw [hd] at h
        exact ih { w with grids := w.grids ++
          [⟨d, permuteInsertionDomainIndices w.factory.domains w.factory.elements.length⟩] } h (by simp [hg])

/-- The flag of the Cython class is never set. -/
theorem step_finalized {K : Type} (w w' : World K) (c : Call K) (h : step w c = .ok w') :
    w'.factory.finalized = false := by
  cases hf : w.factory.finalized with
  | true => cases c <;> simp [step, hf] at h
  | false =>
    cases c with
    | insertVertex v => simp only [step, hf, Bool.false_eq_true, if_false] at h; cases h; rfl
    | insertElement t d => simp only [step, hf, Bool.false_eq_true, if_false] at h; cases h; rfl
    | finalize =>
      simp only [step, hf, Bool.false_eq_true, if_false] at h
      cases hd : DataContainer.init w.factory.nodes.length w.factory.elements with
      | none => rw [hd] at h; cases h
      | some d => rw [hd] at h; cases h; exact hf

theorem runCalls_finalized {K : Type} (cs : List (Call K)) : ∀ w w' : World K, w.factory.finalized = false →
    runCalls w cs = .ok w' → w'.factory.finalized = false := by
  induction cs with
  | nil => intro w w' hf h; cases h; exact hf
  | cons c cs ih =>
    intro w w' hf h
    unfold runCalls at h
    cases hs : step w c with
    | error e => rw [hs] at h; cases h
    | ok w1 =>
      rw [hs] at h
      exact ih w1 w' (step_finalized w w1 c hs) h

/-- **C106, counterexample** After any history of a factory, in particular after `finalize`, an insertion is
accepted, and it changes every grid the factory has returned: one more vertex, or one more element, with the
old edges and domain indices. -/
theorem C106_counterexample_insert_after_finalize {K : Type} (cs : List (Call K)) (w : World K)
    (h : runCalls {} cs = .ok w) (g : Owned) (hg : g ∈ w.grids) :
    (∀ v : P3 K, ∃ w', runCalls {} (cs ++ [.insertVertex v]) = .ok w' ∧ g ∈ w'.grids ∧
      w'.entityCount g 2 = w.entityCount g 2 + 1 ∧ w'.entityCount g 1 = w.entityCount g 1 ∧
      w'.entityCount g 0 = w.entityCount g 0) ∧
    (∀ (t : Tri) (d : Int), ∃ w', runCalls {} (cs ++ [.insertElement t d]) = .ok w' ∧ g ∈ w'.grids ∧
      w'.entityCount g 0 = w.entityCount g 0 + 1 ∧ w'.entityCount g 1 = w.entityCount g 1 ∧
      (w'.grid g).domains = (w.grid g).domains) := by
  have hf := runCalls_finalized cs {} w rfl h
  constructor
  · intro v
    have hs : runCalls {} (cs ++ [.insertVertex v]) =
        .ok { w with factory := { w.factory with nodes := w.factory.nodes ++ [v] } } := by
      rw [runCalls_append, h]
      simp only [runCalls, step, hf, Bool.false_eq_true, if_false]
    refine ⟨_, hs, hg, ?_, rfl, rfl⟩
    simp [World.entityCount]
  · intro t d
    have hs : runCalls {} (cs ++ [.insertElement t d]) =
        .ok { w with factory := { w.factory with elements := w.factory.elements ++ [t],
                                                  domains := w.factory.domains ++ [d] } } := by
      rw [runCalls_append, h]
      simp only [runCalls, step, hf, Bool.false_eq_true, if_false]
    refine ⟨_, hs, hg, ?_, rfl, rfl⟩
    simp [World.entityCount]

/-! ### union -/

/-- Number of vertices, and of elements, of the grids before number `i`. -/
def verticesBefore {K : Type} (gs : List (GridData K)) (i : Nat) : Nat :=
  ((gs.take i).map fun g => g.nodes.length).sum

def elementsBefore {K : Type} (gs : List (GridData K)) (i : Nat) : Nat :=
  ((gs.take i).map fun g => g.data.elements.length).sum

theorem inserted_map_vertices {K : Type} (vs : List (P3 K)) :
    insertedVertices (vs.map Call.insertVertex) = vs ∧
    insertedElements (vs.map Call.insertVertex) = [] ∧
    ∀ c ∈ vs.map Call.insertVertex, c.IsInsert := by
  refine ⟨?_, ?_, ?_⟩
  · induction vs with
    | nil => rfl
    | cons v vs ih => simp [insertedVertices, ih]
  · induction vs with
    | nil => rfl
    | cons v vs ih => simp [insertedElements, ih]
  · intro c hc
    obtain ⟨v, -, rfl⟩ := List.mem_map.mp hc
    trivial

theorem inserted_map_elements (K : Type) (o : Nat) (d : Int) (ts : List Tri) :
    insertedVertices ((ts.map fun t => [(t.a : Int), t.b, t.c]).map (elementCall K o d)) = [] ∧
    insertedElements ((ts.map fun t => [(t.a : Int), t.b, t.c]).map (elementCall K o d)) =
      ts.map (fun t => (shift o t, d)) ∧
    ∀ c ∈ (ts.map fun t => [(t.a : Int), t.b, t.c]).map (elementCall K o d), c.IsInsert := by
  refine ⟨?_, ?_, ?_⟩
  · induction ts with
    | nil => rfl
    | cons t ts ih => simpa [insertedVertices, elementCall] using ih
  · induction ts with
    | nil => rfl
    | cons t ts ih =>
      simp only [List.map_cons, elementCall, insertedElements]
      congr 1
  · intro c hc
    obtain ⟨v, -, rfl⟩ := List.mem_map.mp hc
    trivial

/-- The elements of the union, with their domain indices. -/
def unionElements {K : Type} (ds : List Int) : (index offset : Nat) → List (GridData K) → List (Tri × Int)
  | _, _, [] => []
  | i, o, g :: gs => g.data.elements.map (fun t => (shift o t, ds.getD i 0)) ++
      unionElements ds (i + 1) (o + g.nodes.length) gs

theorem unionLoop_ok {K : Type} (junk : P3 K) (ds : List Int) (gs : List (GridData K)) :
    ∀ (i o : Nat) (w : World K), w.factory.finalized = false →
    (∀ k g, gs[k]? = some g → g.data.elements ≠ [] → i + k < ds.length) →
    unionLoop junk ds i o w gs = .ok ⟨⟨w.factory.nodes ++ gs.flatMap (fun g => g.nodes),
      w.factory.elements ++ (unionElements ds i o gs).map Prod.fst,
      w.factory.domains ++ (unionElements ds i o gs).map Prod.snd, false⟩, w.grids⟩ := by
  induction gs with
  | nil =>
    intro i o w hf _
    cases w with
    | mk f gs =>
      cases f
      simp only at hf
      subst hf
      simp [unionLoop, unionElements]
  | cons g gs ih =>
    intro i o w hf hd
    obtain ⟨m1, m2, m3⟩ := inserted_map_vertices g.nodes
    have hr := runCalls_inserts _ m3 w hf
    rw [m1, m2] at hr
    simp only [List.map_nil, List.append_nil] at hr
    unfold unionLoop
    rw [viewVertices_eq, hr]
    dsimp only
    have hd' : ∀ k g', gs[k]? = some g' → g'.data.elements ≠ [] → i + 1 + k < ds.length := by
      intro k g' hk hne
      have := hd (k + 1) g' (by simpa using hk) hne
      omega
    rw [viewElements_eq]
    cases he : g.data.elements with
    | nil =>
      simp only [List.map_nil, List.append_nil]
      rw [ih _ _ _ rfl hd']
      simp [unionElements, he]
    | cons t ts =>
      have hi : i < ds.length := hd 0 g rfl (by rw [he]; simp)
      rw [List.getElem?_eq_getElem hi]
      obtain ⟨n1, n2, n3⟩ := inserted_map_elements K o ds[i] (t :: ts)
      have hr2 := runCalls_inserts _ n3 (w := ⟨⟨w.factory.nodes ++ g.nodes,
        w.factory.elements, w.factory.domains, false⟩, w.grids⟩) rfl
      rw [n1, n2] at hr2
      show (match runCalls (K := K) ⟨⟨w.factory.nodes ++ g.nodes, w.factory.elements, w.factory.domains, false⟩, w.grids⟩
          (((t :: ts).map fun t => [(t.a : Int), t.b, t.c]).map (elementCall K o ds[i])) with
        | .error e => Except.error e
        | .ok w2 => unionLoop junk ds (i + 1) (o + g.nodes.length) w2 gs) = _
      rw [hr2]
      dsimp only
      rw [ih _ _ _ rfl hd']
      have : ds.getD i 0 = ds[i] := by simp [hi]
      simp [unionElements, he, hi]

theorem unionLoop_raises {K : Type} (junk : P3 K) (ds : List Int) (gs : List (GridData K)) :
    ∀ (i o : Nat) (w : World K), w.factory.finalized = false →
    (∃ k g, gs[k]? = some g ∧ g.data.elements ≠ [] ∧ ds.length ≤ i + k) →
    unionLoop junk ds i o w gs = .error .indexError := by
  induction gs with
  | nil => rintro i o w hf ⟨k, g, hk, -⟩; simp at hk
  | cons g gs ih =>
    rintro i o w hf ⟨k, g', hk, hne, hle⟩
    obtain ⟨m1, m2, m3⟩ := inserted_map_vertices g.nodes
    have hr := runCalls_inserts _ m3 w hf
    rw [m1, m2] at hr
    simp only [List.map_nil, List.append_nil] at hr
    unfold unionLoop
    rw [viewVertices_eq, hr]
    dsimp only
    rw [viewElements_eq]
    cases he : g.data.elements with
    | nil =>
      simp only [List.map_nil]
      cases k with
      | zero =>
        simp at hk
        subst hk
        exact absurd he hne
      | succ k => exact ih _ _ _ rfl ⟨k, g', by simpa using hk, hne, by omega⟩
    | cons t ts =>
      by_cases hi : i < ds.length
      · rw [List.getElem?_eq_getElem hi]
        obtain ⟨n1, n2, n3⟩ := inserted_map_elements K o ds[i] (t :: ts)
        have hr2 := runCalls_inserts _ n3 (w := ⟨⟨w.factory.nodes ++ g.nodes,
          w.factory.elements, w.factory.domains, false⟩, w.grids⟩) rfl
        show (match runCalls (K := K) ⟨⟨w.factory.nodes ++ g.nodes, w.factory.elements, w.factory.domains, false⟩, w.grids⟩
          (((t :: ts).map fun t => [(t.a : Int), t.b, t.c]).map (elementCall K o ds[i])) with
        | .error e => Except.error e
        | .ok w2 => unionLoop junk ds (i + 1) (o + g.nodes.length) w2 gs) = _
        rw [hr2]
        dsimp only
        cases k with
        | zero => omega
        | succ k => exact ih _ _ _ rfl ⟨k, g', by simpa using hk, hne, by omega⟩
      · rw [List.getElem?_eq_none (by omega)]
        rfl

theorem unionElements_get {K : Type} (ds : List Int) (gs : List (GridData K)) :
    ∀ (i0 o i j : Nat) (g : GridData K) (t : Tri), gs[i]? = some g → g.data.elements[j]? = some t →
      (unionElements ds i0 o gs)[elementsBefore gs i + j]? =
        some (shift (o + verticesBefore gs i) t, ds.getD (i0 + i) 0) := by
  induction gs with
  | nil => intro i0 o i j g t h; simp at h
  | cons a gs ih =>
    intro i0 o i j g t h ht
    cases i with
    | zero =>
      simp at h
      subst h
      have hj : j < a.data.elements.length := by
        by_contra hc
        rw [List.getElem?_eq_none (by omega)] at ht
        cases ht
      simp only [elementsBefore, verticesBefore, List.take_zero, List.map_nil, List.sum_nil, Nat.zero_add,
        Nat.add_zero, unionElements]
      rw [List.getElem?_append_left (by simpa using hj), List.getElem?_map, ht]
      rfl
    | succ i =>
      have h' : gs[i]? = some g := by simpa using h
      have e1 : elementsBefore (a :: gs) (i + 1) = a.data.elements.length + elementsBefore gs i := by
        simp [elementsBefore]
      have e2 : verticesBefore (a :: gs) (i + 1) = a.nodes.length + verticesBefore gs i := by
        simp [verticesBefore]
      rw [e1, e2]
      unfold unionElements
      rw [List.getElem?_append_right (by simp; omega)]
      have := ih (i0 + 1) (o + a.nodes.length) i j g t h' ht
      rw [show a.data.elements.length + elementsBefore gs i + j -
        (a.data.elements.map (fun t => (shift o t, ds.getD i0 0))).length = elementsBefore gs i + j by
          simp; omega, this]
      rw [show o + a.nodes.length + verticesBefore gs i = o + (a.nodes.length + verticesBefore gs i) by omega,
        show i0 + 1 + i = i0 + (i + 1) by omega]

theorem unionElements_length {K : Type} (ds : List Int) (gs : List (GridData K)) :
    ∀ (i0 o : Nat), (unionElements ds i0 o gs).length = (gs.map fun g => g.data.elements.length).sum := by
  induction gs with
  | nil => intro i0 o; rfl
  | cons a gs ih => intro i0 o; simp [unionElements, ih]

theorem unionElements_range {K : Type} (ds : List Int) (gs : List (GridData K))
    (hr : ∀ g ∈ gs, ∀ t ∈ g.data.elements, ∀ v ∈ t.verts, v < g.nodes.length) :
    ∀ (i0 o : Nat), ∀ e ∈ unionElements ds i0 o gs, ∀ v ∈ e.1.verts,
      v < o + (gs.flatMap fun g => g.nodes).length := by
  induction gs with
  | nil => intro i0 o e he; simp [unionElements] at he
  | cons a gs ih =>
    intro i0 o e he v hv
    unfold unionElements at he
    rw [List.mem_append] at he
    rw [List.flatMap_cons, List.length_append]
    rcases he with he | he
    · obtain ⟨t, ht, rfl⟩ := List.mem_map.mp he
      have := hr a (by simp) t ht
      simp [Tri.verts, shift] at hv this
      omega
    · have := ih (fun g hg => hr g (by simp [hg])) _ _ e he v hv
      omega

theorem flatMap_nodes_get {K : Type} (gs : List (GridData K)) :
    ∀ (i v : Nat) (g : GridData K), gs[i]? = some g → v < g.nodes.length →
      (gs.flatMap fun g => g.nodes)[v + verticesBefore gs i]? = g.nodes[v]? := by
  induction gs with
  | nil => intro i v g h; simp at h
  | cons a gs ih =>
    intro i v g h hv
    rw [List.flatMap_cons]
    cases i with
    | zero =>
      simp at h
      subst h
      simp only [verticesBefore, List.take_zero, List.map_nil, List.sum_nil, Nat.add_zero]
      exact List.getElem?_append_left hv
    | succ i =>
      have e2 : verticesBefore (a :: gs) (i + 1) = a.nodes.length + verticesBefore gs i := by
        simp [verticesBefore]
      rw [e2, List.getElem?_append_right (by omega),
        show v + (a.nodes.length + verticesBefore gs i) - a.nodes.length = v + verticesBefore gs i by omega]
      exact ih i v g (by simpa using h) hv

theorem union_eq {K : Type} (gs : List (GridData K)) (ds : List Int) (junk : P3 K)
    (hr : ∀ g ∈ gs, ∀ t ∈ g.data.elements, ∀ v ∈ t.verts, v < g.nodes.length)
    (hd : ∀ k g, gs[k]? = some g → g.data.elements ≠ [] → k < ds.length) :
    ∃ g, union gs (some ds) junk = .ok g ∧ GridOk g ∧ g.nodes = gs.flatMap (fun g => g.nodes) ∧
      g.data.elements = (unionElements ds 0 0 gs).map Prod.fst ∧
      g.domains = (unionElements ds 0 0 gs).map Prod.snd := by
  obtain ⟨cs, hcs⟩ : ∃ cs : List (Call K), cs = (gs.flatMap fun g => g.nodes).map Call.insertVertex ++
    (unionElements ds 0 0 gs).map (fun e => Call.insertElement e.1 e.2) := ⟨_, rfl⟩
  have hv : ∀ (l : List (P3 K)) (l' : List (Tri × Int)),
      insertedVertices (l.map Call.insertVertex ++ l'.map (fun e => Call.insertElement e.1 e.2)) = l := by
    intro l l'
    induction l with
    | nil =>
      induction l' with
      | nil => rfl
      | cons e l' ih => simpa [insertedVertices] using ih
    | cons v l ih => simpa [insertedVertices] using ih
  have he : ∀ (l : List (P3 K)) (l' : List (Tri × Int)),
      insertedElements (l.map Call.insertVertex ++ l'.map (fun e => Call.insertElement e.1 e.2)) = l' := by
    intro l l'
    induction l with
    | nil =>
      induction l' with
      | nil => rfl
      | cons e l' ih => simpa [insertedElements] using ih
    | cons v l ih => simpa [insertedElements] using ih
  have hins : ∀ c ∈ cs, c.IsInsert := by
    intro c hc
    rw [hcs, List.mem_append] at hc
    rcases hc with hc | hc
    · obtain ⟨v, -, rfl⟩ := List.mem_map.mp hc; trivial
    · obtain ⟨v, -, rfl⟩ := List.mem_map.mp hc; trivial
  have h1 : insertedVertices cs = gs.flatMap fun g => g.nodes := by rw [hcs, hv]
  have h2 : insertedElements cs = unionElements ds 0 0 gs := by rw [hcs, he]
  obtain ⟨w, g, hw, hgs, hok, k1, k2, k3⟩ := C106_factory cs hins (by
    rw [h1, h2]
    intro e hm v hv'
    have := unionElements_range ds gs hr 0 0 e hm v hv'
    omega)
  rw [runCalls_append, runCalls_inserts cs hins {} rfl, h1, h2] at hw
  refine ⟨w.grid g, ?_, hok, by rw [k1, h1], by rw [k2, h2], by rw [k3, h2]⟩
  unfold union
  rw [Option.getD_some, unionLoop_ok junk ds gs 0 0 {} rfl (by
    intro k g hk hne; have := hd k g hk hne; omega)]
  dsimp only at hw ⊢
  unfold runCalls at hw
  generalize hstep : step (K := K) _ Call.finalize = r at hw ⊢
  cases r with
  | error e => cases hw
  | ok w' =>
    cases hw
    simp only [hgs, List.getLast?_singleton]

/-- **C106** The union of grids has the vertices of all of them one after the other, and all their elements
one after the other, each with the same corner points as before; with `domain_indices` given, every element
of grid number `i` gets the domain index number `i`.  Vertices of different grids are never identified. -/
theorem C106_union {K : Type} (gs : List (GridData K)) (ds : List Int) (junk : P3 K)
    (hok : ∀ g ∈ gs, GridOk g) (hd : gs.length ≤ ds.length) :
    ∃ u, union gs (some ds) junk = .ok u ∧ GridOk u ∧
      u.nodes = gs.flatMap (fun g => g.nodes) ∧
      u.data.elements.length = (gs.map fun g => g.data.elements.length).sum ∧
      ∀ (i : Nat) (g : GridData K), gs[i]? = some g → ∀ (j : Nat) (t : Tri), g.data.elements[j]? = some t →
        u.domains[elementsBefore gs i + j]? = ds[i]? ∧
        ∃ s, u.data.elements[elementsBefore gs i + j]? = some s ∧
          u.nodes[s.a]? = g.nodes[t.a]? ∧ u.nodes[s.b]? = g.nodes[t.b]? ∧ u.nodes[s.c]? = g.nodes[t.c]? ∧
          s = shift (verticesBefore gs i) t := by
  have hlt : ∀ k g, gs[k]? = some g → k < gs.length := by
    intro k g hk
    by_contra hc
    rw [List.getElem?_eq_none (by omega)] at hk
    cases hk
  obtain ⟨u, hu, hu1, hu2, hu3, hu4⟩ := union_eq gs ds junk (fun g hg => (hok g hg).range)
    (fun k g hk _ => by have := hlt k g hk; omega)
  refine ⟨u, hu, hu1, hu2, by rw [hu3, List.length_map, unionElements_length], ?_⟩
  intro i g hi j t ht
  have hget := unionElements_get ds gs 0 0 i j g t hi ht
  rw [Nat.zero_add, Nat.zero_add] at hget
  have hr := (hok g (List.mem_of_getElem? hi)).range t (List.mem_of_getElem? ht)
  simp only [Tri.verts, List.mem_cons, List.not_mem_nil, or_false, forall_eq_or_imp, forall_eq] at hr
  refine ⟨?_, shift (verticesBefore gs i) t, ?_, ?_, ?_, ?_, rfl⟩
  · have := hlt i g hi
    rw [hu4, List.getElem?_map, hget]
    simp [show i < ds.length by omega]
  · rw [hu3, List.getElem?_map, hget]; rfl
  · rw [hu2]; exact flatMap_nodes_get gs i t.a g hi hr.1
  · rw [hu2]; exact flatMap_nodes_get gs i t.b g hi hr.2.1
  · rw [hu2]; exact flatMap_nodes_get gs i t.c g hi hr.2.2

/-- **C106** The union raises `IndexError` exactly if some grid with at least one element has no domain index
in the list. -/
theorem C106_union_raises_iff {K : Type} (gs : List (GridData K)) (ds : List Int) (junk : P3 K)
    (hok : ∀ g ∈ gs, GridOk g) :
    union gs (some ds) junk = .error .indexError ↔
      ∃ k g, gs[k]? = some g ∧ g.data.elements ≠ [] ∧ ds.length ≤ k := by
  constructor
  · intro h
    by_contra hc
    push Not at hc
    obtain ⟨u, hu, -⟩ := union_eq gs ds junk (fun g hg => (hok g hg).range) hc
    rw [hu] at h
    cases h
  · rintro ⟨k, g, h1, h2, h3⟩
    unfold union
    rw [Option.getD_some, unionLoop_raises junk ds gs 0 0 {} rfl ⟨k, g, h1, h2, by omega⟩]

/-- **C106** Elements of different grids have no vertex in common in the union, wherever the grids lie. -/
theorem C106_union_disjoint {K : Type} (gs : List (GridData K)) (hok : ∀ g ∈ gs, GridOk g)
    (i i' : Nat) (g g' : GridData K) (hi : gs[i]? = some g) (hi' : gs[i']? = some g') (hne : i ≠ i')
    (t t' : Tri) (ht : t ∈ g.data.elements) (ht' : t' ∈ g'.data.elements) :
    ∀ v ∈ (shift (verticesBefore gs i) t).verts, v ∉ (shift (verticesBefore gs i') t').verts := by
  have key : ∀ (i i' : Nat) (g : GridData K), gs[i]? = some g → i < i' →
      verticesBefore gs i + g.nodes.length ≤ verticesBefore gs i' := by
    intro i i' g hg hlt
    have hil : i < gs.length := by
      by_contra hc
      rw [List.getElem?_eq_none (by omega)] at hg
      cases hg
    have h1 : verticesBefore gs (i + 1) = verticesBefore gs i + g.nodes.length := by
      unfold verticesBefore
      rw [List.take_succ, hg]
      simp
    have h2 : ∀ n, verticesBefore gs (i + 1) ≤ verticesBefore gs (i + 1 + n) := by
      intro n
      unfold verticesBefore
      rw [List.take_add (i := i + 1), List.map_append, List.sum_append]
      omega
    have := h2 (i' - (i + 1))
    rw [show i + 1 + (i' - (i + 1)) = i' by omega] at this
    omega
  intro v hv hv'
  have r1 := (hok g (List.mem_of_getElem? hi)).range t ht
  have r2 := (hok g' (List.mem_of_getElem? hi')).range t' ht'
  simp [Tri.verts, shift] at hv hv' r1 r2
  rcases Nat.lt_or_gt_of_ne hne with h | h
  · have := key i i' g hi h
    omega
  · have := key i' i g' hi' h
    omega

/-- **C106, counterexample** Without `domain_indices` the union forgets the domain indices of its grids: all
are 0, also for a single grid. -/
theorem C106_counterexample_union_domains {K : Type} (gs : List (GridData K)) (hok : ∀ g ∈ gs, GridOk g)
    (junk : P3 K) :
    ∃ u, union gs none junk = .ok u ∧ ∀ d ∈ u.domains, d = 0 := by
  have hu : union gs none junk = union gs (some (List.replicate gs.length 0)) junk := rfl
  obtain ⟨u, h, -, -, -, h4⟩ := union_eq gs (List.replicate gs.length 0) junk (fun g hg => (hok g hg).range)
    (fun k g hk _ => by
      simp
      by_contra hc
      rw [List.getElem?_eq_none (by omega)] at hk
      cases hk)
  refine ⟨u, by rw [hu, h], ?_⟩
  intro d hd
  rw [h4] at hd
  obtain ⟨e, he, rfl⟩ := List.mem_map.mp hd
  have : ∀ (gs : List (GridData K)) (n i o : Nat), ∀ e ∈ unionElements (List.replicate n 0) i o gs, e.2 = 0 := by
    intro gs
    induction gs with
    | nil => intro n i o e he; simp [unionElements] at he
    | cons a gs ih =>
      intro n i o e he
      unfold unionElements at he
      rw [List.mem_append] at he
      rcases he with he | he
      · obtain ⟨t, -, rfl⟩ := List.mem_map.mp he
        show (List.replicate n (0 : Int)).getD i 0 = 0
        by_cases h : i < n <;> simp [h]
      · exact ih n _ _ e he
  exact this gs _ 0 0 e he

/-! ### A concrete case -/

/-- The union of two grids with two and one triangles; the second repeats a vertex of the first. -/
def squareCalls : List (Call ℤ) :=
  [.insertVertex ⟨0, 0, 0⟩, .insertVertex ⟨1, 0, 0⟩, .insertVertex ⟨1, 1, 0⟩, .insertVertex ⟨0, 1, 0⟩,
   .insertElement ⟨0, 1, 2⟩ 7, .insertElement ⟨0, 2, 3⟩ 8]

def triangleCalls : List (Call ℤ) :=
  [.insertVertex ⟨1, 0, 0⟩, .insertVertex ⟨2, 0, 0⟩, .insertVertex ⟨1, 1, 0⟩, .insertElement ⟨0, 1, 2⟩ 9]

example : ∃ a b u : GridData ℤ, a.nodes.length = 4 ∧ b.nodes.length = 3 ∧ GridOk a ∧ GridOk b ∧
    (∃ w g, runCalls {} (squareCalls ++ [.finalize]) = .ok w ∧ w.grids = [g] ∧ w.grid g = a) ∧
    (∃ w g, runCalls {} (triangleCalls ++ [.finalize]) = .ok w ∧ w.grids = [g] ∧ w.grid g = b) ∧
    union [a, b] (some [1, 2]) ⟨0, 0, 0⟩ = .ok u ∧ u.nodes.length = 7 ∧
    u.data.elements = [⟨0, 1, 2⟩, ⟨0, 2, 3⟩, ⟨4, 5, 6⟩] ∧ u.domains = [1, 1, 2] := by
  obtain ⟨w, g, h1, h2, h3, h4, h5, h6⟩ := C106_factory squareCalls (by simp [squareCalls, Call.IsInsert])
    (by decide)
  obtain ⟨w', g', k1, k2, k3, k4, k5, k6⟩ := C106_factory triangleCalls (by simp [triangleCalls, Call.IsInsert])
    (by decide)
  have hall : ∀ x ∈ [w.grid g, w'.grid g'], GridOk x := by
    intro x hx
    simp at hx
    rcases hx with rfl | rfl
    · exact h3
    · exact k3
  obtain ⟨u, u1, u2, u3, u4, u5⟩ := union_eq [w.grid g, w'.grid g'] [1, 2] ⟨0, 0, 0⟩
    (fun x hx => (hall x hx).range) (by
      intro k x hk _
      match k, hk with
      | 0, _ => decide
      | 1, _ => decide
      | k + 2, hk => simp at hk)
  refine ⟨_, _, u, by rw [h4]; rfl, by rw [k4]; rfl, h3, k3, ⟨w, g, h1, h2, rfl⟩, ⟨w', g', k1, k2, rfl⟩, u1,
    ?_, ?_, ?_⟩
  · rw [u3]; simp [h4, k4]; decide
  · rw [u4]; simp [unionElements, h5, k5, h4]; decide
  · rw [u5]; simp [unionElements, h5, k5, h4]; decide

end Verif.PyGrid
