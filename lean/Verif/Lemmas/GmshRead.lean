import Verif.Lemmas.Gmsh
/-
Lemmas about the sections of a Gmsh file.
-/
namespace Verif.Gmsh
open Verif.Grid

variable {F : Type}

/-- The line of a vertex. -/
def vertexLine (c : Codec F) (v : Nat × P3 F) : Bytes := showNat v.1 ++ 32 :: (c.text v.2.x ++ 32 :: (c.text v.2.y ++ 32 :: c.text v.2.z))

/-- The line of an element: number, vertices, domain. -/
def elementLine (e : Nat × (Nat × Nat × Nat) × Nat) : Bytes :=
  showNat e.1 ++ 32 :: ([50] ++ 32 :: ([50] ++ 32 :: (showNat e.2.2 ++ 32 :: ([48] ++ 32 :: (showNat e.2.1.1 ++ 32 :: (showNat e.2.1.2.1 ++ 32 ::
    showNat e.2.1.2.2))))))

theorem word_text {c : Codec F} (hc : c.Lawful) (x : F) : Word (c.text x) :=
  ⟨hc.text_ne x, fun b hb => by have := hc.text_printable x b hb; omega⟩

theorem word_one (n : Nat) (h : 33 ≤ n ∧ n < 127) : Word [n] := ⟨by simp, fun x hx => by rw [List.mem_singleton.1 hx]; exact h⟩

theorem lineOk_vertexLine {c : Codec F} (hc : c.Lawful) (v : Nat × P3 F) : LineOk (vertexLine c v) :=
  lineOk_cons (word_showNat _) (lineOk_cons (word_text hc _) (lineOk_cons (word_text hc _) (lineOk_word (word_text hc _)) (hc.text_ne _)) (by simp))
    (by simp)

theorem lineOk_elementLine (e : Nat × (Nat × Nat × Nat) × Nat) : LineOk (elementLine e) :=
  lineOk_cons (word_showNat _) (lineOk_cons (word_one 50 (by omega)) (lineOk_cons (word_one 50 (by omega)) (lineOk_cons (word_showNat _)
    (lineOk_cons (word_one 48 (by omega)) (lineOk_cons (word_showNat _) (lineOk_cons (word_showNat _) (lineOk_word (word_showNat _))
    (word_showNat _).1) (by simp)) (by simp)) (by simp)) (by simp)) (by simp)) (by simp)

theorem readVertex_line {c : Codec F} (hc : c.Lawful) (v : Nat × P3 F) : readVertex c (vertexLine c v) = .ok ((v.1 : Int), v.2) := by
  unfold readVertex vertexLine
  rw [split_cons (word_showNat _), split_cons (word_text hc _), split_cons (word_text hc _), split_word (word_text hc _)]
  dsimp only
  rw [parseInt_showNat, hc.text_read, hc.text_read, hc.text_read]
  rfl

/-- The element of a line. -/
def toFile (e : Nat × (Nat × Nat × Nat) × Nat) : FileElement := ⟨e.1, [(e.2.1.1 : Int), (e.2.1.2.1 : Int), (e.2.1.2.2 : Int)], e.2.2⟩

theorem parseInt_two : parseInt [50] = some 2 := by decide

theorem readElement_line (e : Nat × (Nat × Nat × Nat) × Nat) : readElement (elementLine e) = .ok (some (toFile e)) := by
  unfold readElement elementLine
  rw [split_cons (word_showNat _), split_cons (word_one 50 (by omega)), split_cons (word_one 50 (by omega)), split_cons (word_showNat _),
    split_cons (word_one 48 (by omega)), split_cons (word_showNat _), split_cons (word_showNat _), split_word (word_showNat _)]
  simp only [List.reverse_cons, List.reverse_nil, List.nil_append, List.cons_append, List.getElem?_cons_zero, List.getElem?_cons_succ,
    Option.bind_some, parseInt_showNat, parseInt_two]
  rfl

theorem head_showNat_append (n : Nat) (l : Bytes) : ∃ a t, showNat n ++ l = a :: t ∧ 48 ≤ a := by
  have h := showNat_digits n
  cases hs : showNat n with
  | nil => exact absurd hs h.1
  | cons a t => exact ⟨a, t ++ l, rfl, (h.2 a (by rw [hs]; exact List.mem_cons_self)).1⟩

theorem showNat_append_ne (n : Nat) (l : Bytes) {b : Bytes} (hb : b.head? = some 36) : showNat n ++ l ≠ b := by
  obtain ⟨a, t, h, ha⟩ := head_showNat_append n l
  rw [h]
  rintro rfl
  have : a = 36 := Option.some.inj hb
  omega

theorem bind_ok {α β : Type} (a : α) (f : α → Except Exn β) : ((Except.ok a : Except Exn α) >>= f) = f a := rfl

theorem pure_ok {α : Type} (a : α) : (pure a : Except Exn α) = Except.ok a := rfl

theorem vertexLine_ne (c : Codec F) (v : Nat × P3 F) {b : Bytes} (hb : b.head? = some 36) : vertexLine c v ≠ b := showNat_append_ne _ _ hb

theorem elementLine_ne (e : Nat × (Nat × Nat × Nat) × Nat) {b : Bytes} (hb : b.head? = some 36) : elementLine e ≠ b := showNat_append_ne _ _ hb

theorem lineOk_endNodes : LineOk (ascii "$EndNodes") := by constructor <;> decide

theorem lineOk_endElements : LineOk (ascii "$EndElements") := by constructor <;> decide

theorem readVertices_ok {c : Codec F} (hc : c.Lawful) (v : Nat × P3 F) (vs : List (Nat × P3 F)) (rest : Bytes) :
    readVertices c (vs.length + 1) (vertexLine c v) (vs.flatMap (fun v => vertexLine c v ++ [10]) ++ (ascii "$EndNodes" ++ 10 :: rest)) =
      .ok ((v :: vs).map fun v => ((v.1 : Int), v.2), ascii "$EndNodes", rest) := by
  induction vs generalizing v with
  | nil =>
    rw [List.length_nil, readVertices, readVertex_line hc, List.flatMap_nil, List.nil_append, bind_ok, line_append c rest lineOk_endNodes]
    rfl
  | cons w vs ih =>
    rw [List.length_cons, readVertices, readVertex_line hc, List.flatMap_cons, bind_ok, List.append_assoc, List.append_assoc, List.singleton_append,
      line_append c _ (lineOk_vertexLine hc w), bind_ok]
    dsimp only
    rw [if_neg (by omega), if_neg (vertexLine_ne c w rfl), ih w]
    rfl

theorem readElements_ok (c : Codec F) (e : Nat × (Nat × Nat × Nat) × Nat) (es : List (Nat × (Nat × Nat × Nat) × Nat)) (rest : Bytes) :
    readElements c (es.length + 1) (elementLine e) (es.flatMap (fun e => elementLine e ++ [10]) ++ (ascii "$EndElements" ++ 10 :: rest)) =
      .ok ((e :: es).map toFile, ascii "$EndElements", rest) := by
  induction es generalizing e with
  | nil =>
    rw [List.length_nil, readElements, if_neg (elementLine_ne e rfl), readElement_line, List.flatMap_nil, List.nil_append, bind_ok,
      line_append c rest lineOk_endElements]
    rfl
  | cons w es ih =>
    rw [List.length_cons, readElements, if_neg (elementLine_ne e rfl), readElement_line, List.flatMap_cons, bind_ok, List.append_assoc,
      List.append_assoc, List.singleton_append, line_append c _ (lineOk_elementLine w), bind_ok]
    dsimp only
    rw [if_neg (by omega), ih w]
    rfl

/-- The bytes of a vertex. -/
def vertexBytes (c : Codec F) (v : Nat × P3 F) : Bytes := pk v.1 ++ c.pack v.2.x ++ c.pack v.2.y ++ c.pack v.2.z

theorem vertexBytes_length {c : Codec F} (hc : c.Lawful) (v : Nat × P3 F) : (vertexBytes c v).length = 28 := by
  simp [vertexBytes, pk_length, hc.pack_length]

theorem take_append_eq {a t : Bytes} {n : Nat} (h : a.length = n) : (a ++ t).take n = a := by rw [← h, List.take_left]

theorem drop_append_eq {a t : Bytes} {n : Nat} (h : a.length = n) : (a ++ t).drop n = t := by rw [← h, List.drop_left]

theorem readVerticesBinary_ok {c : Codec F} (hc : c.Lawful) (vs : List (Nat × P3 F)) (hv : ∀ v ∈ vs, Fits v.1) (rest : Bytes) :
    readVerticesBinary c vs.length 8 (vs.flatMap (vertexBytes c) ++ rest) = .ok (vs.map fun v => ((v.1 : Int), v.2), rest) := by
  have hlen : (vs.flatMap (vertexBytes c)).length = vs.length * (4 + 3 * 8) := flatMap_length_const fun v _ => vertexBytes_length hc v
  unfold readVerticesBinary
  dsimp only
  rw [take_append_eq hlen, drop_append_eq hlen, hlen, if_neg (by omega), if_pos (by omega)]
  congr 2
  apply List.ext_getElem
  · simp
  · intro i h1 h2
    rw [List.getElem_map, List.getElem_range, List.getElem_map]
    have h2 : i < vs.length := by simpa using h2
    obtain ⟨t, ht⟩ := drop_flatMap (f := vertexBytes c) (k := 28) (fun v _ => vertexBytes_length hc v) i h2 []
    rw [List.append_nil] at ht
    have h4 : (List.drop (28 * i + 4) (vs.flatMap (vertexBytes c))) = c.pack vs[i].2.x ++ (c.pack vs[i].2.y ++ (c.pack vs[i].2.z ++ t)) := by
      rw [← List.drop_drop, ht]
      unfold vertexBytes
      rw [List.append_assoc, List.append_assoc, List.append_assoc, drop_append_eq (pk_length _)]
    have h12 : (List.drop (28 * i + 12) (vs.flatMap (vertexBytes c))) = c.pack vs[i].2.y ++ (c.pack vs[i].2.z ++ t) := by
      rw [show 28 * i + 12 = 28 * i + 4 + 8 by ring, ← List.drop_drop, h4, drop_append_eq (hc.pack_length _)]
    have h20 : (List.drop (28 * i + 20) (vs.flatMap (vertexBytes c))) = c.pack vs[i].2.z ++ t := by
      rw [show 28 * i + 20 = 28 * i + 12 + 8 by ring, ← List.drop_drop, h12, drop_append_eq (hc.pack_length _)]
    have h0 : List.take 4 (List.drop (28 * i) (vs.flatMap (vertexBytes c))) = pk vs[i].1 := by
      rw [ht]
      unfold vertexBytes
      rw [List.append_assoc, List.append_assoc, List.append_assoc, take_append_eq (pk_length _)]
    rw [h0, h4, h12, h20, take_append_eq (hc.pack_length _), take_append_eq (hc.pack_length _), take_append_eq (hc.pack_length _),
      hc.pack_read, hc.pack_read, hc.pack_read, unpack_pk (hv _ (List.getElem_mem h2))]

/-- The numbers of a binary element. -/
def elementInts (e : Nat × (Nat × Nat × Nat) × Nat) : List Int :=
  [(e.1 : Int), (e.2.2 : Int), 0, (e.2.1.1 : Int), (e.2.1.2.1 : Int), (e.2.1.2.2 : Int)]

theorem readBlock_ok (es : List (Nat × (Nat × Nat × Nat) × Nat)) (he : ∀ e ∈ es, ∀ n ∈ elementInts e, Fits n) (rest : Bytes) :
    readBlock 2 2 3 es.length (es.flatMap (fun e => (elementInts e).flatMap pk) ++ rest) = .ok (es.map toFile, rest) := by
  induction es with
  | nil => rfl
  | cons e es ih =>
    have hf := he e List.mem_cons_self
    rw [List.length_cons, readBlock, List.flatMap_cons, List.append_assoc]
    have h0 : (elementInts e).flatMap pk = [(e.1 : Int)].flatMap pk ++ ([(e.2.2 : Int), 0].flatMap pk ++
        [(e.2.1.1 : Int), (e.2.1.2.1 : Int), (e.2.1.2.2 : Int)].flatMap pk) := rfl
    have e1 := readInts_ok (l := [(e.1 : Int)]) (fun n hn => hf n (by simp [elementInts] at hn ⊢; tauto))
      ([(e.2.2 : Int), 0].flatMap pk ++ ([(e.2.1.1 : Int), (e.2.1.2.1 : Int), (e.2.1.2.2 : Int)].flatMap pk ++
        (es.flatMap (fun e => (elementInts e).flatMap pk) ++ rest)))
    have e2 := readInts_ok (l := [(e.2.2 : Int), 0]) (fun n hn => hf n (by simp [elementInts] at hn ⊢; tauto))
      ([(e.2.1.1 : Int), (e.2.1.2.1 : Int), (e.2.1.2.2 : Int)].flatMap pk ++ (es.flatMap (fun e => (elementInts e).flatMap pk) ++ rest))
    have e3 := readInts_ok (l := [(e.2.1.1 : Int), (e.2.1.2.1 : Int), (e.2.1.2.2 : Int)])
      (fun n hn => hf n (by simp [elementInts] at hn ⊢; tauto)) (es.flatMap (fun e => (elementInts e).flatMap pk) ++ rest)
    rw [h0, List.append_assoc, List.append_assoc]
    have e1' : readInts 1 ([(e.1 : Int)].flatMap pk ++ ([(e.2.2 : Int), 0].flatMap pk ++ ([(e.2.1.1 : Int), (e.2.1.2.1 : Int), (e.2.1.2.2 : Int)].flatMap pk ++
        (es.flatMap (fun e => (elementInts e).flatMap pk) ++ rest)))) = _ := e1
    have e2' : readInts 2 ([(e.2.2 : Int), 0].flatMap pk ++ ([(e.2.1.1 : Int), (e.2.1.2.1 : Int), (e.2.1.2.2 : Int)].flatMap pk ++
      (es.flatMap (fun e => (elementInts e).flatMap pk) ++ rest))) = _ := e2
    have e3' : readInts 3 ([(e.2.1.1 : Int), (e.2.1.2.1 : Int), (e.2.1.2.2 : Int)].flatMap pk ++
      (es.flatMap (fun e => (elementInts e).flatMap pk) ++ rest)) = _ := e3
    rw [e1', bind_ok]
    dsimp only
    rw [e2', bind_ok]
    dsimp only
    rw [e3', bind_ok]
    dsimp only
    rw [ih fun e he' => he e (List.mem_cons_of_mem _ he')]
    rfl

theorem readBlocks_ok (es : List (Nat × (Nat × Nat × Nat) × Nat)) (hne : es ≠ []) (hl : Fits es.length)
    (he : ∀ e ∈ es, ∀ n ∈ elementInts e, Fits n) (fuel : Nat) (rest : Bytes) :
    readBlocks (fuel + 2) es.length 0 ([(2 : Int), (es.length : Int), 2].flatMap pk ++ (es.flatMap (fun e => (elementInts e).flatMap pk) ++ rest)) =
      .ok (es.map toFile, rest) := by
  have hpos : 0 < es.length := List.length_pos_of_ne_nil hne
  have e1 := readInts_ok (l := [(2 : Int), (es.length : Int), 2]) (fun n hn => by
    simp only [List.mem_cons, List.not_mem_nil, or_false] at hn
    rcases hn with rfl | rfl | rfl
    · constructor <;> norm_num
    · exact hl
    · constructor <;> norm_num) (es.flatMap (fun e => (elementInts e).flatMap pk) ++ rest)
  have e1' : readInts 3 ([(2 : Int), (es.length : Int), 2].flatMap pk ++ (es.flatMap (fun e => (elementInts e).flatMap pk) ++ rest)) = _ := e1
  rw [readBlocks, if_pos (by omega), e1', bind_ok]
  dsimp only
  have hn : nodesPerElemType (([(2 : Int), (es.length : Int), 2] : List Int).getD 0 0) = some 3 := rfl
  have hc : ¬ (([(2 : Int), (es.length : Int), 2] : List Int).getD 2 0 < 0 ∧ 0 < ([(2 : Int), (es.length : Int), 2] : List Int).getD 1 0) := by
    intro h
    have : (2 : Int) < 0 := h.1
    omega
  rw [hn]
  dsimp only
  rw [bind_ok, if_neg hc]
  have hb : readBlock (([(2 : Int), (es.length : Int), 2] : List Int).getD 0 0) (([(2 : Int), (es.length : Int), 2] : List Int).getD 2 0).toNat 3
      (([(2 : Int), (es.length : Int), 2] : List Int).getD 1 0).toNat (es.flatMap (fun e => (elementInts e).flatMap pk) ++ rest) = _ :=
    readBlock_ok es he rest
  rw [hb, bind_ok]
  dsimp only
  have hd : (([(2 : Int), (es.length : Int), 2] : List Int).getD 1 0).toNat = es.length := rfl
  rw [hd, readBlocks, if_neg (by omega), bind_ok]
  dsimp only
  rw [List.append_nil]
  rfl

end Verif.Gmsh
