import Verif.Lemmas.GridFactory
import Verif.Props.DataContainer
import Mathlib.Tactic.Ring
/-
Lemmas about the barycentric refinement.
-/
namespace Verif.Grid

/-- A list made of blocks of equal length. -/
theorem flatMap_block_get {α β : Type} (m : Nat) (f : α → List β) (hf : ∀ a, (f a).length = m) :
    ∀ (l : List α) (q r : Nat), r < m → (l.flatMap f)[m * q + r]? = (l[q]?).bind fun a => (f a)[r]? := by
  intro l
  induction l with
  | nil => intro q r _; simp
  | cons a l ih =>
    intro q r hr
    rw [List.flatMap_cons]
    cases q with
    | zero =>
      rw [Nat.mul_zero, Nat.zero_add, List.getElem?_append_left (by rw [hf]; exact hr)]
      rfl
    | succ q =>
      rw [List.getElem?_append_right (by rw [hf, Nat.mul_add]; omega), hf]
      have : m * (q + 1) + r - m = m * q + r := by rw [Nat.mul_add]; omega
      rw [this, ih q r hr]
      rfl

theorem flatMap_block_length {α β : Type} (m : Nat) (f : α → List β) (hf : ∀ a, (f a).length = m)
    (l : List α) : (l.flatMap f).length = m * l.length := by
  induction l with
  | nil => simp
  | cons a l ih => rw [List.flatMap_cons, List.length_append, ih, hf, List.length_cons, Nat.mul_add]; omega

/-- A grid as produced by the library: connectivity tables built from its elements, which are proper
triangles with vertex indices in range. -/
structure GridData.Valid {K : Type} (g : GridData K) : Prop where
  init : ∃ c, DataContainer.init g.data.nnodes g.data.elements c = some g.data
  nodes : g.nodes.length = g.data.nnodes
  domains : g.domains.length = g.data.elements.length
  mesh : MeshOk g.data.nnodes g.data.elements

theorem tempSonMap_get (T e k : Nat) (he : e < T) (hk : k < 6) :
    (tempSonMap T)[6 * e + k]? = some (e, k) := by
  unfold tempSonMap
  rw [flatMap_block_get 6 _ (by intro a; simp) _ _ _ hk, List.getElem?_range he]
  simp [hk]

theorem barySonMap_get (T n : Nat) (hn : n ≤ 6 * T) (e k : Nat) (hk : k < 6) (hek : 6 * e + k < n) :
    barySonMap (tempSonMap T) n e k = 6 * e + k := by
  unfold barySonMap
  induction n with
  | zero => omega
  | succ n ih =>
    rw [List.range_succ, List.foldl_append]
    simp only [List.foldl_cons, List.foldl_nil]
    have hq : (tempSonMap T)[n]? = some (n / 6, n % 6) := by
      have := tempSonMap_get T (n / 6) (n % 6) (by omega) (Nat.mod_lt _ (by omega))
      rwa [show 6 * (n / 6) + n % 6 = n by omega] at this
    rw [hq]
    simp only [Option.getD_some]
    by_cases h : 6 * e + k = n
    · have h1 : n / 6 = e := by omega
      have h2 : n % 6 = k := by omega
      rw [h1, h2, Function.update_self, Function.update_self, h]
    · have := ih (by omega) (by omega)
      by_cases h1 : e = n / 6
      · subst h1
        rw [Function.update_self, Function.update_of_ne (by omega), this]
      · rw [Function.update_of_ne h1, this]

/-- The edges of an element in the order of its sides. -/
theorem element_edges {K : Type} (g : GridData K) (hg : g.Valid) (e : Nat) (t : Tri)
    (ht : g.data.elements[e]? = some t) : ∃ f0 f1 f2 p0 p1 p2,
      g.data.element2Edges[e]? = some [f0, f1, f2] ∧
      g.data.edges[f0]? = some p0 ∧ side p0 = s(t.a, t.b) ∧
      g.data.edges[f1]? = some p1 ∧ side p1 = s(t.a, t.c) ∧
      g.data.edges[f2]? = some p2 ∧ side p2 = s(t.b, t.c) ∧
      f0 ≠ f1 ∧ f0 ≠ f2 ∧ f1 ≠ f2 := by
  obtain ⟨c, hc⟩ := hg.init
  obtain ⟨is, his, hm⟩ := C31_element2Edges _ _ c _ hc e t ht
  have hnd := element2Edges_nodup _ _ c _ hc hg.mesh is (List.mem_of_getElem? his)
  match is, his, hm, hnd with
  | [f0, f1, f2], his, hm, hnd =>
    simp only [Tri.sides, List.map_cons, List.map_nil, List.cons.injEq, and_true] at hm
    obtain ⟨h0, h1, h2⟩ := hm
    obtain ⟨p0, hp0, hs0⟩ := Option.map_eq_some_iff.mp h0
    obtain ⟨p1, hp1, hs1⟩ := Option.map_eq_some_iff.mp h1
    obtain ⟨p2, hp2, hs2⟩ := Option.map_eq_some_iff.mp h2
    simp only [List.nodup_cons, List.mem_cons, List.not_mem_nil, or_false, not_or] at hnd
    exact ⟨f0, f1, f2, p0, p1, p2, his, hp0, hs0, hp1, hs1, hp2, hs2, hnd.1.1, hnd.1.2, hnd.2.1⟩
  | [], _, hm, _ => simp [Tri.sides] at hm
  | [_], _, hm, _ => simp [Tri.sides] at hm
  | [_, _], _, hm, _ => simp [Tri.sides] at hm
  | _ :: _ :: _ :: _ :: _, _, hm, _ => simp [Tri.sides] at hm

/-- The sons of a triangle: `n + f` are the midpoint vertices, `C` is the centroid vertex. -/
def sonList (n C : Nat) (t : Tri) (f0 f1 f2 : Nat) : List Tri :=
  [⟨t.a, C, n + f1⟩, ⟨t.a, n + f0, C⟩, ⟨t.b, C, n + f0⟩, ⟨t.b, n + f2, C⟩, ⟨t.c, C, n + f2⟩,
    ⟨t.c, n + f1, C⟩]

/-- A half edge is a side of son `k` iff it joins the son's old vertex to its edge midpoint. -/
theorem half_side (n E e : Nat) (t : Tri) (f0 f1 f2 u i k : Nat) (hk : k < 6) (hu : u < n) (hi : i < E)
    (ha : t.a < n) (hb : t.b < n) (hc : t.c < n) (h0 : f0 < E) (h1 : f1 < E) (h2 : f2 < E) :
    (∃ son, (sonList n (n + E + e) t f0 f1 f2)[k]? = some son ∧ s(u, n + i) ∈ son.sides) ↔
      ((k = 0 ∧ u = t.a ∧ i = f1) ∨ (k = 1 ∧ u = t.a ∧ i = f0) ∨ (k = 2 ∧ u = t.b ∧ i = f0) ∨
       (k = 3 ∧ u = t.b ∧ i = f2) ∨ (k = 4 ∧ u = t.c ∧ i = f2) ∨ (k = 5 ∧ u = t.c ∧ i = f1)) := by
  obtain ⟨a, b, c⟩ := t
  unfold sonList
  simp only at ha hb hc ⊢
  have c1 : ¬ (n + i = n + E + e) := by omega
  have c2 : ∀ f, ¬ (u = n + f) := by intro f; omega
  have c3 : ¬ (u = n + E + e) := by omega
  obtain rfl | rfl | rfl | rfl | rfl | rfl : k = 0 ∨ k = 1 ∨ k = 2 ∨ k = 3 ∨ k = 4 ∨ k = 5 := by omega
  all_goals simp [Tri.sides, c1, c2, c3]

/-- Which sons have the side joining `x` to the centroid of element `e`. -/
theorem inner_side (n E e e2 : Nat) (t : Tri) (f0 f1 f2 x k : Nat) (hk : k < 6) (hx : x < n + E)
    (ha : t.a < n) (hb : t.b < n) (hc : t.c < n) (h0 : f0 < E) (h1 : f1 < E) (h2 : f2 < E) :
    (∃ son, (sonList n (n + E + e2) t f0 f1 f2)[k]? = some son ∧ s(x, n + E + e) ∈ son.sides) ↔
      e2 = e ∧ (((k = 0 ∨ k = 1) ∧ x = t.a) ∨ ((k = 2 ∨ k = 3) ∧ x = t.b) ∨
        ((k = 4 ∨ k = 5) ∧ x = t.c) ∨ ((k = 1 ∨ k = 2) ∧ x = n + f0) ∨
        ((k = 0 ∨ k = 5) ∧ x = n + f1) ∨ ((k = 3 ∨ k = 4) ∧ x = n + f2)) := by
  obtain ⟨a, b, c⟩ := t
  unfold sonList
  simp only at ha hb hc ⊢
  have c1 : ∀ f < E, ¬ (n + E + e = n + f) := by intro f hf; omega
  have c3 : ¬ (x = n + E + e2) := by omega
  have c4 : ∀ a < n, ¬ (n + E + e = a) := by intro a ha; omega
  have c5 : n + E + e = n + E + e2 ↔ e2 = e := by omega
  obtain rfl | rfl | rfl | rfl | rfl | rfl : k = 0 ∨ k = 1 ∨ k = 2 ∨ k = 3 ∨ k = 4 ∨ k = 5 := by omega
  all_goals
    simp only [List.getElem?_cons_zero, List.getElem?_cons_succ, Option.some.injEq, exists_eq_left',
        Tri.sides, List.mem_cons, List.not_mem_nil, or_false, Sym2.eq_iff, true_and, true_or, or_true,
        c1 _ h0, c1 _ h1, c1 _ h2, c3, c4 _ ha, c4 _ hb, c4 _ hc, c5, and_false, false_and, false_or]
    clear c1 c3 c4 c5 hx ha hb hc h0 h1 h2 hk
    constructor
    · rintro (⟨h, h'⟩ | ⟨h, h'⟩) <;> simp [h, h']
    · rintro ⟨h, h'⟩
      simp only [OfNat.ofNat_ne_zero, OfNat.zero_ne_ofNat, OfNat.ofNat_ne_one, OfNat.one_ne_ofNat,
        zero_ne_one, one_ne_zero, or_self, false_and, or_false, false_or, Nat.reduceEqDiff] at h'
      rcases h' with h' | h' <;> simp [h, h']

/-- The two sons that share the side from `x` to the centroid. -/
theorem inner_pair (n a b c f0 f1 f2 x k1 k2 : Nat) (hab : a ≠ b) (hac : a ≠ c) (hbc : b ≠ c)
    (d01 : f0 ≠ f1) (d02 : f0 ≠ f2) (d12 : f1 ≠ f2) (ha : a < n) (hb : b < n) (hc : c < n)
    (h : (x = a ∧ ((k1 = 0 ∧ k2 = 1) ∨ (k1 = 1 ∧ k2 = 0))) ∨
      (x = b ∧ ((k1 = 2 ∧ k2 = 3) ∨ (k1 = 3 ∧ k2 = 2))) ∨
      (x = c ∧ ((k1 = 4 ∧ k2 = 5) ∨ (k1 = 5 ∧ k2 = 4))) ∨
      (x = n + f0 ∧ ((k1 = 1 ∧ k2 = 2) ∨ (k1 = 2 ∧ k2 = 1))) ∨
      (x = n + f1 ∧ ((k1 = 0 ∧ k2 = 5) ∨ (k1 = 5 ∧ k2 = 0))) ∨
      (x = n + f2 ∧ ((k1 = 3 ∧ k2 = 4) ∨ (k1 = 4 ∧ k2 = 3)))) :
    ∀ k < 6, ((((k = 0 ∨ k = 1) ∧ x = a) ∨ ((k = 2 ∨ k = 3) ∧ x = b) ∨
        ((k = 4 ∨ k = 5) ∧ x = c) ∨ ((k = 1 ∨ k = 2) ∧ x = n + f0) ∨
        ((k = 0 ∨ k = 5) ∧ x = n + f1) ∨ ((k = 3 ∨ k = 4) ∧ x = n + f2)) ↔ (k = k1 ∨ k = k2)) := by
  intro k hk
  have n1 : ∀ f, a ≠ n + f := by intro f; omega
  have n2 : ∀ f, b ≠ n + f := by intro f; omega
  have n3 : ∀ f, c ≠ n + f := by intro f; omega
  rcases h with ⟨rfl, ⟨rfl, rfl⟩ | ⟨rfl, rfl⟩⟩ | ⟨rfl, ⟨rfl, rfl⟩ | ⟨rfl, rfl⟩⟩ |
    ⟨rfl, ⟨rfl, rfl⟩ | ⟨rfl, rfl⟩⟩ | ⟨rfl, ⟨rfl, rfl⟩ | ⟨rfl, rfl⟩⟩ |
    ⟨rfl, ⟨rfl, rfl⟩ | ⟨rfl, rfl⟩⟩ | ⟨rfl, ⟨rfl, rfl⟩ | ⟨rfl, rfl⟩⟩ <;>
  simp [n1, n2, n3, (n1 _).symm, (n2 _).symm, (n3 _).symm, hab, hac, hbc, hab.symm, hac.symm, hbc.symm,
    d01, d02, d12, d01.symm, d02.symm, d12.symm, or_comm]

theorem barySons_length (n2 n1 e : Nat) (v f : Nat → Nat) : (barySons n2 n1 e v f).length = 6 := rfl

theorem baryElements_length {K : Type} (g : GridData K) :
    (baryElements g).length = 6 * g.data.elements.length := by
  unfold baryElements
  rw [flatMap_block_length 6 _ (by intro a; rfl), List.length_range]

theorem baryElements_get {K : Type} (g : GridData K) (hg : g.Valid) (e : Nat) (t : Tri)
    (ht : g.data.elements[e]? = some t) (f0 f1 f2 : Nat)
    (hf : g.data.element2Edges[e]? = some [f0, f1, f2]) (k : Nat) (hk : k < 6) :
    (baryElements g)[6 * e + k]? =
      (sonList g.data.nnodes (g.data.nnodes + g.data.edges.length + e) t f0 f1 f2)[k]? := by
  unfold baryElements
  have he := (List.getElem?_eq_some_iff.mp ht).1
  rw [flatMap_block_get 6 _ (by intro a; rfl) _ _ _ hk, List.getElem?_range he]
  simp only [Option.bind_some, ht, hf, Option.map_some, Option.getD_some]
  rfl

theorem baryVertices_length {K : Type} [Field K] (g : GridData K) (hg : g.Valid) :
    (baryVertices g).length = g.data.nnodes + g.data.edges.length + g.data.elements.length := by
  unfold baryVertices
  simp [hg.nodes, Nat.add_assoc]

theorem baryElements_cases {K : Type} (g : GridData K) (hg : g.Valid) (q : Nat) (son : Tri)
    (hq : (baryElements g)[q]? = some son) :
    ∃ t f0 f1 f2, g.data.elements[q / 6]? = some t ∧
      g.data.element2Edges[q / 6]? = some [f0, f1, f2] ∧
      son ∈ sonList g.data.nnodes (g.data.nnodes + g.data.edges.length + q / 6) t f0 f1 f2 := by
  have hlt := (List.getElem?_eq_some_iff.mp hq).1
  rw [baryElements_length] at hlt
  have he : q / 6 < g.data.elements.length := by omega
  obtain ⟨f0, f1, f2, p0, p1, p2, hf, -⟩ := element_edges g hg (q / 6) _ (List.getElem?_eq_getElem he)
  have := baryElements_get g hg (q / 6) _ (List.getElem?_eq_getElem he) f0 f1 f2 hf (q % 6)
    (Nat.mod_lt _ (by omega))
  rw [show 6 * (q / 6) + q % 6 = q by omega, hq] at this
  exact ⟨_, f0, f1, f2, List.getElem?_eq_getElem he, hf, List.mem_of_getElem? this.symm⟩

theorem edge_lt {K : Type} (g : GridData K) {i : Nat} {p : Nat × Nat} (h : g.data.edges[i]? = some p) :
    i < g.data.edges.length := (List.getElem?_eq_some_iff.mp h).1

theorem baryMesh {K : Type} (g : GridData K) (hg : g.Valid) :
    MeshOk (g.data.nnodes + g.data.edges.length + g.data.elements.length) (baryElements g) := by
  have key : ∀ son ∈ baryElements g, (∀ v ∈ son.verts,
      v < g.data.nnodes + g.data.edges.length + g.data.elements.length) ∧ son.Proper := by
    intro son hson
    obtain ⟨q, hq⟩ := List.mem_iff_getElem?.mp hson
    obtain ⟨t, f0, f1, f2, ht, hf, hmem⟩ := baryElements_cases g hg q son hq
    obtain ⟨f0', f1', f2', p0, p1, p2, hf', e0, -, e1, -, e2, -⟩ := element_edges g hg _ t ht
    rw [hf] at hf'
    cases hf'
    have l0 := edge_lt g e0
    have l1 := edge_lt g e1
    have l2 := edge_lt g e2
    have hr := hg.mesh.range t (List.mem_of_getElem? ht)
    have ra := hr t.a (by simp [Tri.verts])
    have rb := hr t.b (by simp [Tri.verts])
    have rc := hr t.c (by simp [Tri.verts])
    have hq6 := (List.getElem?_eq_some_iff.mp ht).1
    simp only [sonList, List.mem_cons, List.not_mem_nil, or_false] at hmem
    rcases hmem with rfl | rfl | rfl | rfl | rfl | rfl <;>
      (constructor
       · intro v hv
         simp only [Tri.verts, List.mem_cons, List.not_mem_nil, or_false] at hv
         omega
       · simp only [Tri.Proper]; omega)
  exact ⟨fun t ht => (key t ht).1, fun t ht => (key t ht).2⟩

/-- What `barycentricGridSonPair` returns. -/
theorem bary_spec {K : Type} [Field K] (g : GridData K) (hg : g.Valid) :
    ∃ b s, barycentricGridSonPair g = .ok (b, s) ∧ b.nodes = baryVertices g ∧
      b.data.elements = baryElements g ∧ b.domains = baryDomains g ∧
      s = barySonMap (tempSonMap g.data.elements.length) (6 * g.data.elements.length) ∧
      b.data.nnodes = (baryVertices g).length ∧
      DataContainer.init b.data.nnodes b.data.elements = some b.data := by
  unfold barycentricGridSonPair
  simp only
  generalize hvm : (⟨3, (baryVertices g).length, fun r c =>
    let p := nodeAt (baryVertices g) c
    if r = 0 then p.x else if r = 1 then p.y else p.z⟩ : Mat K) = vm
  generalize hem : (⟨3, (baryElements g).length, fun r c =>
    ((((baryElements g)[c]?.map Tri.verts).getD [])[r]?.getD 0 : Nat)⟩ : Mat Int) = em
  have hmesh := baryMesh g hg
  have hbad : ¬ ImportBad true vm.rows vm.cols em (baryDomains g) := by
    unfold ImportBad
    push Not
    subst hvm hem
    refine ⟨by simp, rfl, by simp, ?_, ?_⟩
    · intro _
      show (baryDomains g).length = (baryElements g).length
      rw [baryElements_length]
      unfold baryDomains
      rw [flatMap_block_length 6 _ (by intro a; simp), List.length_range]
    · intro i hi r hr
      simp only at hi ⊢
      refine ⟨Int.natCast_nonneg _, ?_⟩
      rw [List.getElem?_eq_getElem hi]
      have := hmesh.range _ (List.getElem_mem hi)
      rw [baryVertices_length g hg]
      simp only [Option.map_some, Option.getD_some, Nat.cast_lt]
      apply this
      obtain rfl | rfl | rfl : r = 0 ∨ r = 1 ∨ r = 2 := by omega
      all_goals simp [Tri.verts]
  obtain ⟨d, hd, hok⟩ := import_good true vm em (baryDomains g) hbad
  have hcols : vm.cols = (baryVertices g).length := by subst hvm; rfl
  have hel : (List.range em.cols).map (colTri em) = baryElements g := by
    subst hem
    apply List.ext_getElem?
    intro k
    simp only
    by_cases hk : k < (baryElements g).length
    · rw [List.getElem?_map, List.getElem?_range hk, List.getElem?_eq_getElem hk]
      simp only [Option.map_some, colTri, List.getElem?_eq_getElem hk, Option.getD_some, Tri.verts,
        Int.toNat_natCast]
      rfl
    · rw [List.getElem?_eq_none (by simpa using hk), List.getElem?_eq_none (by omega)]
  have hnodes : (List.range vm.cols).map (fun i => (⟨vm.at_ 0 i, vm.at_ 1 i, vm.at_ 2 i⟩ : P3 K)) =
      baryVertices g := by
    subst hvm
    apply List.ext_getElem?
    intro k
    simp only
    by_cases hk : k < (baryVertices g).length
    · rw [List.getElem?_map, List.getElem?_range hk, List.getElem?_eq_getElem hk]
      simp [nodeAt, List.getElem?_eq_getElem hk]
    · rw [List.getElem?_eq_none (by simpa using hk), List.getElem?_eq_none (by omega)]
  rw [hel] at hd
  obtain ⟨d', hd', h1, h2, -⟩ := init_spec vm.cols (baryElements g) 0 (by
    rw [hcols, baryVertices_length g hg]; exact hmesh.range)
  rw [hd] at hd'
  cases hd'
  rw [hok]
  refine ⟨_, _, rfl, hnodes, h2, ?_, ?_, ?_, ?_⟩
  · simp only
    by_cases hdm : baryDomains g = []
    · rw [if_pos hdm]
      have hl : (baryDomains g).length = 6 * g.data.elements.length := by
        unfold baryDomains
        rw [flatMap_block_length 6 _ (by intro a; simp), List.length_range]
      have hc : em.cols = 6 * g.data.elements.length := by subst hem; exact baryElements_length g
      rw [hc, ← hl, hdm]; rfl
    · rw [if_neg hdm]
  · simp only [h2, baryElements_length]
  · simp only [h1, hcols]
  · simp only [h1, h2]; exact hd

end Verif.Grid
