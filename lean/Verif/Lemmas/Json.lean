import Verif.Spec.Json
import Verif.Lemmas.Gmsh
import Mathlib.Tactic.Ring
import Mathlib.Tactic.Linarith
/-
Lemmas about JSON files.
-/
namespace Verif.Json
open Verif.Gmsh (Bytes Exn)

theorem bind_ok {α β : Type} (a : α) (f : α → Except Exn β) : ((Except.ok a : Except Exn α) >>= f) = f a := rfl

theorem pure_ok {α : Type} (a : α) : (pure a : Except Exn α) = Except.ok a := rfl

theorem charValue_alphabet {n : Nat} (h : n < 64) : charValue (alphabet n) = some n := by
  unfold charValue alphabet
  repeat' split
  all_goals first | (exfalso; omega) | (congr 1; omega)

theorem alphabet_ne {n : Nat} : alphabet n ≠ 61 := by
  unfold alphabet
  repeat' split
  all_goals omega

theorem decode0 {left pads n : Nat} (h : n < 64) (l : Bytes) : decodeAux 0 left pads (alphabet n :: l) = decodeAux 1 n 0 l := by
  simp only [decodeAux, if_neg alphabet_ne, charValue_alphabet h]

theorem decode1 {left pads n : Nat} (h : n < 64) (l : Bytes) :
    decodeAux 1 left pads (alphabet n :: l) = (decodeAux 2 (n % 16) 0 l).map fun r => (left * 4 + n / 16) :: r := by
  simp only [decodeAux, if_neg alphabet_ne, charValue_alphabet h]

theorem decode2 {left pads n : Nat} (h : n < 64) (l : Bytes) :
    decodeAux 2 left pads (alphabet n :: l) = (decodeAux 3 (n % 4) 0 l).map fun r => (left * 16 + n / 4) :: r := by
  simp only [decodeAux, if_neg alphabet_ne, charValue_alphabet h]

theorem decode3 {left pads n : Nat} (h : n < 64) (l : Bytes) :
    decodeAux 3 left pads (alphabet n :: l) = (decodeAux 0 0 0 l).map fun r => (left * 64 + n) :: r := by
  simp only [decodeAux, if_neg alphabet_ne, charValue_alphabet h]

theorem b64_roundtrip (b : Bytes) (h : ∀ x ∈ b, x < 256) : b64decode (b64encode b) = some b := by
  unfold b64decode
  induction b using b64encode.induct with
  | case1 a b c l ih =>
    have ha := h a (by simp)
    have hb := h b (by simp)
    have hc := h c (by simp)
    rw [b64encode, decode0 (by omega)]
    rw [decode1 (by omega)]
    rw [decode2 (by omega)]
    rw [decode3 (by omega)]
    rw [ih fun x hx => h x (by simp [hx])]
    simp only [Option.map_some, Option.some.injEq, List.cons.injEq, and_true]
    refine ⟨?_, ?_, ?_⟩ <;> omega
  | case2 a b =>
    have ha := h a (by simp)
    have hb := h b (by simp)
    rw [b64encode, decode0 (by omega)]
    rw [decode1 (by omega)]
    rw [decode2 (by omega)]
    rw [decodeAux, if_pos rfl, if_pos (by omega)]
    simp only [Option.map_some, Option.some.injEq, List.cons.injEq, and_true]
    refine ⟨?_, ?_⟩ <;> omega
  | case3 a =>
    have ha := h a (by simp)
    rw [b64encode, decode0 (by omega)]
    rw [decode1 (by omega)]
    rw [decodeAux, if_pos rfl, if_neg (by omega), decodeAux, if_pos rfl, if_pos (by omega)]
    simp only [Option.map_some, Option.some.injEq, List.cons.injEq, and_true]
    omega
  | case4 => rfl

theorem decodeAux_noise (quad left pads : Nat) (s : Bytes) :
    decodeAux quad left pads s = decodeAux quad left pads (s.filter fun c => c == 61 || (charValue c).isSome) := by
  induction s generalizing quad left pads with
  | nil => rfl
  | cons c l ih =>
    by_cases h61 : c = 61
    · subst h61
      rw [List.filter_cons, if_pos (by simp), decodeAux, decodeAux, if_pos rfl, if_pos rfl, ← ih]
    · cases hv : charValue c with
      | none =>
        rw [List.filter_cons, if_neg (by simp [h61, hv]), decodeAux, if_neg h61, hv]
        exact ih _ _ _
      | some v =>
        rw [List.filter_cons, if_pos (by simp [hv]), decodeAux, decodeAux, if_neg h61, if_neg h61, hv]
        dsimp only
        split
        · exact ih _ _ _
        · rw [← ih]
        · rw [← ih]
        · rw [← ih]

theorem items_pack {α : Type} {t : DType α} (l : List α) (hl : ∀ x ∈ l, (t.pack x).length = t.size ∧ t.unpack (t.pack x) = x) :
    items t l.length (l.flatMap t.pack) = l := by
  induction l with
  | nil => rfl
  | cons x l ih =>
    obtain ⟨h1, h2⟩ := hl x (List.mem_cons_self ..)
    rw [List.length_cons, List.flatMap_cons, items, ← h1, List.take_left, List.drop_left, h2, ih fun y hy => hl y (List.mem_cons_of_mem _ hy)]

theorem fromBuffer_ok {α : Type} {t : DType α} (l : List α) (hp : 0 < t.size)
    (hl : ∀ x ∈ l, (t.pack x).length = t.size ∧ t.unpack (t.pack x) = x ∧ ∀ b ∈ t.pack x, b < 256) : fromBuffer t (numpyToBase64 t l) = .ok l := by
  have hlen : (l.flatMap t.pack).length = l.length * t.size := Verif.Gmsh.flatMap_length_const fun x hx => (hl x hx).1
  unfold fromBuffer numpyToBase64
  rw [b64_roundtrip _ (fun x hx => by
    obtain ⟨y, hy, hxy⟩ := List.mem_flatMap.1 hx
    exact (hl y hy).2.2 x hxy)]
  dsimp only
  rw [hlen, Nat.mul_mod_left, if_neg (by simp), Nat.mul_div_cancel _ hp, items_pack l fun x hx => ⟨(hl x hx).1, (hl x hx).2.1⟩]

theorem rowsOf_flatten {α : Type} {cols : Nat} (a : List (List α)) (h : ∀ r ∈ a, r.length = cols) : rowsOf cols a.length a.flatten = a := by
  induction a with
  | nil => rfl
  | cons r a ih =>
    have hr := h r (List.mem_cons_self ..)
    rw [List.length_cons, rowsOf, List.flatten_cons, ← hr, List.take_left, List.drop_left, hr, ih fun s hs => h s (List.mem_cons_of_mem _ hs)]

theorem flatten_length {α : Type} {rows cols : Nat} {a : List (List α)} (h : HasShape a rows cols) : a.flatten.length = rows * cols := by
  obtain ⟨rfl, h⟩ := h
  induction a with
  | nil => simp
  | cons r a ih =>
    rw [List.flatten_cons, List.length_append, h r (List.mem_cons_self ..), ih fun s hs => h s (List.mem_cons_of_mem _ hs), List.length_cons]
    ring

theorem matrix_ok {α : Type} {t : DType α} {rows cols : Nat} {a : List (List α)} (hp : 0 < t.size)
    (hl : ∀ r ∈ a, ∀ x ∈ r, (t.pack x).length = t.size ∧ t.unpack (t.pack x) = x ∧ ∀ b ∈ t.pack x, b < 256) (h : HasShape a rows cols) :
    base64ToMatrix t (numpyToBase64 t a.flatten) rows cols = .ok a := by
  unfold base64ToMatrix
  rw [fromBuffer_ok _ hp (fun x hx => by
    obtain ⟨r, hr, hxr⟩ := List.mem_flatten.1 hx
    exact hl r hr x hxr), bind_ok, if_pos (flatten_length h), pure_ok, ← h.1, rowsOf_flatten a h.2]

theorem vector_ok {α : Type} {t : DType α} {n : Nat} {a : List α} (hp : 0 < t.size)
    (hl : ∀ x ∈ a, (t.pack x).length = t.size ∧ t.unpack (t.pack x) = x ∧ ∀ b ∈ t.pack x, b < 256) (h : a.length = n) :
    base64ToVector t (numpyToBase64 t a) n = .ok a := by
  unfold base64ToVector
  rw [fromBuffer_ok _ hp hl, bind_ok, if_pos h, pure_ok]

theorem lawful_item {α : Type} {t : DType α} {R : α → Prop} (ht : t.Lawful R) {x : α} (h : R x) : (t.pack x).length = t.size ∧ t.unpack (t.pack x) = x ∧ ∀ b ∈ t.pack x, b < 256 :=
  ⟨ht.length x h, ht.read x h, ht.bytes x h⟩

theorem uint32_item {x : Nat} (h : x < 2 ^ 32) : (uint32.pack x).length = uint32.size ∧ uint32.unpack (uint32.pack x) = x ∧ ∀ b ∈ uint32.pack x, b < 256 := by
  refine ⟨rfl, ?_, ?_⟩
  · show x % 256 + 256 * (x / 256 % 256) + 65536 * (x / 65536 % 256) + 16777216 * (x / 16777216 % 256) = x
    omega
  · intro b hb
    simp only [uint32, List.mem_cons, List.not_mem_nil, or_false] at hb
    omega

theorem mapM'_ok {α β : Type} {f : α → Except Exn β} {g : α → β} {l : List α} (h : ∀ a ∈ l, f a = .ok (g a)) : mapM' f l = .ok (l.map g) := by
  induction l with
  | nil => rfl
  | cons a l ih =>
    rw [mapM', h a (List.mem_cons_self ..), bind_ok, ih fun b hb => h b (List.mem_cons_of_mem _ hb)]
    rfl

theorem mapM'_map {α β : Type} {f : β → Except Exn α} {g : α → β} {l : List α} (h : ∀ a ∈ l, f (g a) = .ok a) : mapM' f (l.map g) = .ok l := by
  induction l with
  | nil => rfl
  | cons a l ih =>
    rw [List.map_cons, mapM', h a (List.mem_cons_self ..), bind_ok, ih fun b hb => h b (List.mem_cons_of_mem _ hb)]
    rfl

theorem combine_finite (a : Num) {b : Num} (h : b.IsFinite) : Num.combine a b = (a, b) := by
  cases b with
  | fin y => cases a <;> simp [Num.combine, Num.mul, Num.add, Num.neg]
  | inf n => exact absurd h (by simp [Num.IsFinite])
  | nan => exact absurd h (by simp [Num.IsFinite])

theorem zipWith_fst {r s : List Num} (hl : r.length = s.length) (h : ∀ x ∈ s, x.IsFinite) :
    (r.zipWith Num.combine s).map Prod.fst = r ∧ (r.zipWith Num.combine s).map Prod.snd = s := by
  induction r generalizing s with
  | nil =>
    cases s with
    | nil => exact ⟨rfl, rfl⟩
    | cons y s => simp at hl
  | cons x r ih =>
    cases s with
    | nil => simp at hl
    | cons y s =>
      obtain ⟨h1, h2⟩ := ih (by simpa using hl) fun z hz => h z (List.mem_cons_of_mem _ hz)
      simp only [List.zipWith_cons_cons, List.map_cons, combine_finite x (h y (List.mem_cons_self ..)), h1, h2, and_self]

theorem zipWith_matrix {cols : Nat} {a b : List (List Num)} (hl : a.length = b.length) (ha : ∀ r ∈ a, r.length = cols) (hb : ∀ r ∈ b, r.length = cols)
    (h : ∀ r ∈ b, ∀ x ∈ r, x.IsFinite) :
    (a.zipWith (fun r s => r.zipWith Num.combine s) b).map (fun r => r.map Prod.fst) = a ∧
      (a.zipWith (fun r s => r.zipWith Num.combine s) b).map (fun r => r.map Prod.snd) = b := by
  induction a generalizing b with
  | nil =>
    cases b with
    | nil => exact ⟨rfl, rfl⟩
    | cons y s => simp at hl
  | cons r a ih =>
    cases b with
    | nil => simp at hl
    | cons s b =>
      obtain ⟨h1, h2⟩ := ih (b := b) (by simpa using hl) (fun r hr => ha r (List.mem_cons_of_mem _ hr)) (fun r hr => hb r (List.mem_cons_of_mem _ hr))
        fun z hz => h z (List.mem_cons_of_mem _ hz)
      obtain ⟨h3, h4⟩ := zipWith_fst (r := r) (s := s) (by rw [ha r (List.mem_cons_self ..), hb s (List.mem_cons_self ..)]) (h s (List.mem_cons_self ..))
      simp only [List.zipWith_cons_cons, List.map_cons, h1, h2, h3, h4, and_self]

theorem zipWith_shape {rows cols : Nat} {a b : List (List Num)} (ha : HasShape a rows cols) (hb : HasShape b rows cols) :
    HasShape (a.zipWith (fun r s => r.zipWith Num.combine s) b) rows cols := by
  refine ⟨by rw [List.length_zipWith, ha.1, hb.1, min_self], ?_⟩
  intro r hr
  obtain ⟨i, hi, rfl⟩ := List.mem_iff_getElem.1 hr
  rw [List.getElem_zipWith, List.length_zipWith, ha.2 _ (List.getElem_mem _), hb.2 _ (List.getElem_mem _), min_self]

end Verif.Json
