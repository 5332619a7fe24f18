import Verif.Lemmas.GmshFile
/-
Lemmas about reading whole Gmsh files.
-/
namespace Verif.Gmsh
open Verif.Grid

variable {F : Type}

theorem readFormat_ascii (c : Codec F) (p : Parsed F) (hp : p.binary = false) (rest : Bytes) :
    readFormat c p (ascii "2.2 0 8" ++ 10 :: (ascii "$EndMeshFormat" ++ 10 :: rest)) = .ok ({ p with dataSize := 8 }, rest) := by
  have l1 : LineOk (ascii "2.2 0 8") := by constructor <;> decide
  have l2 : LineOk (ascii "$EndMeshFormat") := by constructor <;> decide
  have s1 : split (ascii "2.2 0 8") = [ascii "2.2", [48], [56]] := by decide
  have s2 : parseInt [48] = some 0 := by decide
  have s3 : parseInt [56] = some 8 := by decide
  unfold readFormat
  rw [line_append c _ l1, bind_ok]
  dsimp only
  rw [s1]
  dsimp only [List.getElem?_cons_zero, List.getElem?_cons_succ]
  simp only [List.getElem?_cons_zero, List.getElem?_cons_succ, ne_eq, not_true_eq_false, if_false, s2, s3, orValueError, bind_ok, hp,
    Bool.false_or, pure_ok]
  rw [show ((0 : Int) == 1) = false from rfl]
  simp only [Bool.false_eq_true, if_false, bind_ok, line_append c _ l2, not_true_eq_false]
  cases p
  simp only at hp
  subst hp
  rfl

theorem readFormat_binary (c : Codec F) (p : Parsed F) (rest : Bytes) :
    readFormat c p (ascii "2.2 1 8" ++ 10 :: ([1, 0, 0, 0] ++ 10 :: (ascii "$EndMeshFormat" ++ 10 :: rest))) =
      .ok ({ p with binary := true, dataSize := 8 }, rest) := by
  have l1 : LineOk (ascii "2.2 1 8") := by constructor <;> decide
  have l2 : LineOk (ascii "$EndMeshFormat") := by constructor <;> decide
  have s1 : split (ascii "2.2 1 8") = [ascii "2.2", [49], [56]] := by decide
  have s2 : parseInt [49] = some 1 := by decide
  have s3 : parseInt [56] = some 8 := by decide
  have hr : ∀ rest, readInts 1 ([1, 0, 0, 0] ++ rest) = .ok ([1], rest) := fun rest => by
    have := readInts_ok (l := [1]) (fun n hn => by rw [List.mem_singleton.1 hn]; exact fits_nat (n := 1) (by norm_num)) rest
    exact this
  have hn : ∀ r : Bytes, (readline (10 :: r)).2 = r := fun r => rfl
  unfold readFormat
  rw [line_append c _ l1, bind_ok]
  dsimp only
  rw [s1]
  simp only [List.getElem?_cons_zero, List.getElem?_cons_succ, ne_eq, not_true_eq_false, if_false, s2, s3, orValueError, bind_ok, pure_ok]
  rw [show ((1 : Int) == 1) = true from rfl, Bool.or_true]
  simp only [if_true, hr, bind_ok, List.getD_cons_zero, not_true_eq_false, if_false, hn, line_append c _ l2]
  rfl

theorem lineOk_showNat (n : Nat) : LineOk (showNat n) := lineOk_word (word_showNat n)

theorem readNodes_ascii {c : Codec F} (hc : c.Lawful) (p : Parsed F) (hp : p.binary = false) (vs : List (Nat × P3 F)) (hne : vs ≠ [])
    (rest : Bytes) :
    readNodes c p (showNat vs.length ++ 10 :: (vs.flatMap (fun v => vertexLine c v ++ [10]) ++ (ascii "$EndNodes" ++ 10 :: rest))) =
      .ok ({ p with vertices := some (vs.map fun v => ((v.1 : Int), v.2)) }, rest) := by
  cases vs with
  | nil => exact absurd rfl hne
  | cons v vs =>
    unfold readNodes
    rw [line_append c _ (lineOk_showNat _), bind_ok]
    dsimp only
    rw [parseInt_showNat]
    simp only [orValueError, bind_ok, hp, Bool.false_eq_true, if_false]
    rw [if_neg (by omega), List.flatMap_cons, List.append_assoc, List.append_assoc, List.singleton_append,
      readline_append _ _ (fun h => by have := (lineOk_vertexLine hc v).1 _ h; omega)]
    dsimp only
    rw [rstrip_append _ (lineOk_vertexLine hc v), Int.toNat_natCast, List.length_cons, readVertices_ok hc, bind_ok]
    dsimp only
    rw [if_neg (by simp), pure_ok]

theorem readNodes_binary {c : Codec F} (hc : c.Lawful) (p : Parsed F) (hp : p.binary = true) (hd : p.dataSize = 8) (vs : List (Nat × P3 F))
    (hv : ∀ v ∈ vs, Fits v.1) (rest : Bytes) :
    readNodes c p (showNat vs.length ++ 10 :: (vs.flatMap (vertexBytes c) ++ 10 :: (ascii "$EndNodes" ++ 10 :: rest))) =
      .ok ({ p with vertices := some (vs.map fun v => ((v.1 : Int), v.2)) }, rest) := by
  unfold readNodes
  rw [line_append c _ (lineOk_showNat _), bind_ok]
  dsimp only
  rw [parseInt_showNat]
  simp only [orValueError, bind_ok, hp, if_true]
  rw [if_neg (by omega), Int.toNat_natCast, hd, readVerticesBinary_ok hc vs hv, bind_ok]
  dsimp only
  have h0 : ∀ r, line c (10 :: r) = .ok ([], r) := fun r => line_append c (l := []) r ⟨by simp, by simp⟩
  rw [h0, bind_ok]
  dsimp only
  rw [line_append c _ lineOk_endNodes, bind_ok, pure_ok, bind_ok]
  dsimp only
  rw [if_neg (by simp), pure_ok]

theorem readElements_ascii (c : Codec F) (p : Parsed F) (hp : p.binary = false) (es : List (Nat × (Nat × Nat × Nat) × Nat)) (hne : es ≠ [])
    (rest : Bytes) :
    readElementsSection c p (showNat es.length ++ 10 :: (es.flatMap (fun e => elementLine e ++ [10]) ++ (ascii "$EndElements" ++ 10 :: rest))) =
      .ok ({ p with elements := some (es.map toFile) }, rest) := by
  cases es with
  | nil => exact absurd rfl hne
  | cons e es =>
    unfold readElementsSection
    rw [line_append c _ (lineOk_showNat _), bind_ok]
    dsimp only
    rw [parseInt_showNat]
    simp only [orValueError, bind_ok, hp, Bool.false_eq_true, if_false]
    rw [List.flatMap_cons, List.append_assoc, List.append_assoc, List.singleton_append, line_append c _ (lineOk_elementLine e), bind_ok]
    dsimp only
    rw [if_neg (by omega), Int.toNat_natCast, List.length_cons, readElements_ok, bind_ok]
    dsimp only
    rw [if_neg (by simp), pure_ok]

theorem readElements_binary (c : Codec F) (p : Parsed F) (hp : p.binary = true) (es : List (Nat × (Nat × Nat × Nat) × Nat)) (hne : es ≠ [])
    (hl : Fits es.length) (he : ∀ e ∈ es, ∀ n ∈ elementInts e, Fits n) (rest : Bytes) :
    readElementsSection c p (showNat es.length ++ 10 :: ([(2 : Int), (es.length : Int), 2].flatMap pk ++
      (es.flatMap (fun e => (elementInts e).flatMap pk) ++ 10 :: (ascii "$EndElements" ++ 10 :: rest)))) =
      .ok ({ p with elements := some (es.map toFile) }, rest) := by
  unfold readElementsSection
  rw [line_append c _ (lineOk_showNat _), bind_ok]
  dsimp only
  rw [parseInt_showNat]
  simp only [orValueError, bind_ok, hp, if_true]
  have hf : ∀ r : Bytes, ∃ fuel, ([(2 : Int), (es.length : Int), 2].flatMap pk ++ r).length + 1 = fuel + 2 := fun r =>
    ⟨11 + r.length, by simp [pk_length]; omega⟩
  obtain ⟨fuel, hfu⟩ := hf (es.flatMap (fun e => (elementInts e).flatMap pk) ++ 10 :: (ascii "$EndElements" ++ 10 :: rest))
  rw [hfu, readBlocks_ok es hne hl he, bind_ok]
  dsimp only
  have h0 : ∀ r, line c (10 :: r) = .ok ([], r) := fun r => line_append c (l := []) r ⟨by simp, by simp⟩
  rw [h0, bind_ok]
  dsimp only
  rw [line_append c _ lineOk_endElements, bind_ok, pure_ok, bind_ok]
  dsimp only
  rw [if_neg (by simp), pure_ok]

theorem parseLoop_format (c : Codec F) (k : Nat) (p : Parsed F) (f : Bytes) :
    parseLoop c (k + 1) p (ascii "$MeshFormat" ++ 10 :: f) = readFormat c p f >>= fun r => parseLoop c k r.1 r.2 := by
  rw [parseLoop, line_append c _ (by constructor <;> decide), bind_ok]
  dsimp only
  rw [if_neg (by decide), if_pos rfl]

theorem parseLoop_nodes (c : Codec F) (k : Nat) (p : Parsed F) (f : Bytes) :
    parseLoop c (k + 1) p (ascii "$Nodes" ++ 10 :: f) = readNodes c p f >>= fun r => parseLoop c k r.1 r.2 := by
  rw [parseLoop, line_append c _ (by constructor <;> decide), bind_ok]
  dsimp only
  rw [if_neg (by decide), if_neg (by decide), if_pos rfl]

theorem parseLoop_elements (c : Codec F) (k : Nat) (p : Parsed F) (f : Bytes) :
    parseLoop c (k + 1) p (ascii "$Elements" ++ 10 :: f) = readElementsSection c p f >>= fun r => parseLoop c k r.1 r.2 := by
  rw [parseLoop, line_append c _ (by constructor <;> decide), bind_ok]
  dsimp only
  rw [if_neg (by decide), if_neg (by decide), if_neg (by decide), if_pos rfl]

/-- What is read from the file of a grid. -/
def parsed (binary : Bool) (g : GenericGrid F) : Parsed F :=
  ⟨some ((fileVertices g).map fun v => ((v.1 : Int), v.2)), some ((fileElements g).map toFile), binary, 8⟩

theorem fileVertices_ne {g : GenericGrid F} (hg : g.Valid) : fileVertices g ≠ [] := by
  intro h
  have h0 := fileVertices_length g
  rw [h, List.length_nil] at h0
  have hp := List.length_pos_of_ne_nil hg.some
  have := getD_lt hg (i := 0) (j := 0) hp (by omega)
  omega

theorem fileElements_ne {g : GenericGrid F} (hg : g.Valid) : fileElements g ≠ [] := by
  intro h
  have h0 := fileElements_length g
  rw [h, List.length_nil] at h0
  have hp := List.length_pos_of_ne_nil hg.some
  omega

theorem parseLoop_asciiFile {c : Codec F} (hc : c.Lawful) {g : GenericGrid F} (hg : g.Valid) (k : Nat) (rest : Bytes) :
    parseLoop c (k + 3) ⟨none, none, false, 0⟩ (asciiFile c g ++ rest) = parseLoop c k (parsed false g) rest := by
  unfold asciiFile formatPart
  simp only [List.append_assoc, List.cons_append, List.nil_append, Bool.false_eq_true, if_false]
  rw [parseLoop_format, readFormat_ascii c _ rfl, bind_ok]
  dsimp only
  rw [parseLoop_nodes, ← fileVertices_length, readNodes_ascii hc _ rfl _ (fileVertices_ne hg), bind_ok]
  dsimp only
  rw [parseLoop_elements, ← fileElements_length, readElements_ascii c _ rfl _ (fileElements_ne hg), bind_ok]
  rfl

theorem parseLoop_binaryFile {c : Codec F} (hc : c.Lawful) {g : GenericGrid F} (hg : g.Valid) (hs : g.Small) (k : Nat) (rest : Bytes) :
    parseLoop c (k + 3) ⟨none, none, false, 0⟩ (binaryFile c g ++ rest) = parseLoop c k (parsed true g) rest := by
  unfold binaryFile formatPart
  simp only [List.append_assoc, List.cons_append, List.nil_append, if_true]
  have h1 := readFormat_binary c (⟨none, none, false, 0⟩ : Parsed F)
  simp only [List.cons_append, List.nil_append] at h1
  rw [parseLoop_format, h1, bind_ok]
  dsimp only
  have h2 : ∀ v ∈ fileVertices g, Fits v.1 := by
    intro v hv
    obtain ⟨i, hi, rfl⟩ := List.mem_iff_getElem.1 hv
    rw [fileVertices_get]
    rw [fileVertices_length] at hi
    have := hs.vertices
    exact fits_nat (n := i + 1) (by omega)
  rw [parseLoop_nodes, ← fileVertices_length, readNodes_binary hc _ rfl rfl _ h2, bind_ok]
  dsimp only
  rw [parseLoop_elements, ← fileElements_length, readElements_binary c _ rfl _ (fileElements_ne hg)
    (fits_nat (by rw [fileElements_length]; exact hs.elements)) (fits_elementInts hg hs), bind_ok]
  rfl

theorem parseLoop_nil (c : Codec F) (k : Nat) (p : Parsed F) : parseLoop c (k + 1) p [] = .ok p := rfl

/-- Lines that the reader skips. -/
def Skipped (l : Bytes) : Prop := LineOk l ∧ l ≠ [] ∧ l ≠ ascii "$MeshFormat" ∧ l ≠ ascii "$Nodes" ∧ l ≠ ascii "$Elements"

/-- A text of lines that the reader skips. -/
def Lines (out : Bytes) : Prop := ∃ lines : List Bytes, out = lines.flatMap (fun l => l ++ [10]) ∧ ∀ l ∈ lines, Skipped l

theorem Lines.nil : Lines [] := ⟨[], rfl, by simp⟩

theorem Lines.append {a b : Bytes} (ha : Lines a) (hb : Lines b) : Lines (a ++ b) := by
  obtain ⟨la, rfl, ha⟩ := ha
  obtain ⟨lb, rfl, hb⟩ := hb
  refine ⟨la ++ lb, by simp, ?_⟩
  intro l hl
  rcases List.mem_append.1 hl with h | h
  · exact ha l h
  · exact hb l h

theorem Lines.single {l : Bytes} (h : Skipped l) : Lines (l ++ [10]) := ⟨[l], by simp, by simpa using h⟩

theorem parseLoop_lines (c : Codec F) {out : Bytes} (h : Lines out) (p : Parsed F) (k : Nat) (hk : out.length < k) :
    parseLoop c k p out = .ok p := by
  obtain ⟨lines, rfl, hl⟩ := h
  revert hl
  induction lines generalizing k with
  | nil =>
    intro _
    cases k with
    | zero => simp at hk
    | succ k => exact parseLoop_nil c k p
  | cons l lines ih =>
    intro hl
    cases k with
    | zero => simp at hk
    | succ k =>
      obtain ⟨h1, h2, h3, h4, h5⟩ := hl l (List.mem_cons_self ..)
      rw [List.flatMap_cons, List.append_assoc, List.singleton_append, parseLoop, line_append c _ h1, bind_ok]
      dsimp only
      rw [if_neg h2, if_neg h3, if_neg h4, if_neg h5]
      refine ih k ?_ (fun l hl' => hl l (List.mem_cons_of_mem _ hl'))
      simp only [List.flatMap_cons, List.length_append, List.length_singleton] at hk
      omega

theorem concatAll_lines {α : Type} {g : α → Except Exn Bytes} {l : List α} {out : Bytes} (hg : ∀ a ∈ l, ∀ o, g a = .ok o → Lines o)
    (h : concatAll g l = .ok out) : Lines out := by
  induction l generalizing out with
  | nil =>
    rw [concatAll] at h
    cases h
    exact Lines.nil
  | cons a l ih =>
    rw [concatAll] at h
    cases ha : g a with
    | error e => rw [ha] at h; cases h
    | ok x =>
      rw [ha, bind_ok] at h
      cases hl : concatAll g l with
      | error e => rw [hl] at h; cases h
      | ok y =>
        rw [hl, bind_ok, pure_ok] at h
        cases h
        exact (hg a (List.mem_cons_self ..) x ha).append (ih (fun b hb => hg b (List.mem_cons_of_mem _ hb)) hl)

theorem skipped_of_head {l : Bytes} (h : LineOk l) (hne : l ≠ []) (hh : l.head? ≠ some 36) : Skipped l :=
  ⟨h, hne, fun e => hh (by rw [e]; rfl), fun e => hh (by rw [e]; rfl), fun e => hh (by rw [e]; rfl)⟩

theorem skipped_showNat (n : Nat) : Skipped (showNat n) := by
  refine skipped_of_head (lineOk_showNat n) (showNat_digits n).1 fun h => ?_
  have := (showNat_digits n).2 36 (List.mem_of_mem_head? h)
  omega

theorem skipped_text {c : Codec F} (hc : c.Lawful) (x : F) : Skipped (c.text x) :=
  skipped_of_head (lineOk_word (word_text hc x)) (hc.text_ne x) fun h => (hc.text_printable x 36 (List.mem_of_mem_head? h)).2.2 rfl

theorem lineOk_values {c : Codec F} (hc : c.Lawful) (l : Bytes) (hl : LineOk l) (vals : List F) :
    LineOk (l ++ vals.flatMap fun v => [32] ++ c.text v) := by
  induction vals generalizing l with
  | nil => simpa using hl
  | cons v vals ih =>
    rw [List.flatMap_cons, ← List.append_assoc]
    apply ih
    rw [← List.append_assoc]
    exact lineOk_append (fun x hx => by
      rcases List.mem_append.1 hx with h | h
      · exact hl.1 x h
      · rw [List.mem_singleton.1 h]; omega) (lineOk_word (word_text hc v)) (hc.text_ne v)

theorem skipped_values {c : Codec F} (hc : c.Lawful) (n : Nat) (vals : List F) : Skipped (showNat n ++ vals.flatMap fun v => [32] ++ c.text v) := by
  refine skipped_of_head (lineOk_values hc _ (lineOk_showNat n) vals) ?_ ?_
  · intro h
    exact (showNat_digits n).1 (List.append_eq_nil_iff.1 h).1
  · obtain ⟨a, t, e, ha⟩ := head_showNat_append n (vals.flatMap fun v => [32] ++ c.text v)
    rw [e, List.head?_cons]
    intro h
    cases h
    omega

theorem skipped_quoted {name : Bytes} (h : ∀ b ∈ name, 32 ≤ b ∧ b < 127) : Skipped (ascii "\"" ++ name ++ ascii "\"") := by
  refine skipped_of_head (lineOk_append ?_ (by constructor <;> decide) (by decide)) (by simp [ascii]) ?_
  · intro x hx
    rcases List.mem_append.1 hx with h' | h'
    · rw [show ascii "\"" = [34] from rfl, List.mem_singleton] at h'
      omega
    · exact h x h'
  · rw [show ascii "\"" = [34] from rfl]
    simp

theorem writeArray_lines {c : Codec F} (hc : c.Lawful) (vertex : Bool) (ids : List Nat) {name : Bytes} (hn : ∀ b ∈ name, 32 ≤ b ∧ b < 127)
    (components : Nat) (array : List (List F)) (time : F) (step : Nat) {out : Bytes}
    (h : writeArray c false vertex ids name components array time step = .ok out) : Lines out := by
  unfold writeArray at h
  simp only [Bool.false_eq_true, if_false] at h
  generalize hb : concatAll _ (List.range array.length) = body at h
  cases body with
  | error e => cases h
  | ok body =>
    rw [bind_ok, pure_ok] at h
    cases h
    have hbody : Lines body := by
      refine concatAll_lines ?_ hb
      intro i _ o ho
      cases hi : item ids i with
      | error e => rw [hi] at ho; cases ho
      | ok id =>
        rw [hi, bind_ok, pure_ok] at ho
        cases ho
        exact Lines.single (skipped_values hc id _)
    have hk : ∀ s : String, Skipped (ascii s) → Lines (ascii (s ++ "\n")) := fun s hs => by rw [ascii_nl]; exact Lines.single hs
    have hs : ∀ s : String, ((∀ x ∈ ascii s, 32 ≤ x ∧ x < 127) ∧ (∀ x ∈ (ascii s).getLast?, x ≠ 32)) ∧ ascii s ≠ [] ∧ ascii s ≠ ascii "$MeshFormat" ∧
        ascii s ≠ ascii "$Nodes" ∧ ascii s ≠ ascii "$Elements" → Skipped (ascii s) := fun s h => h
    have h1 : Lines (ascii "1\n") := hk "1" (hs _ (by decide))
    have h3 : Lines (ascii "3\n") := hk "3" (hs _ (by decide))
    have hq : Lines (ascii "\"" ++ name ++ ascii "\"\n") := by
      rw [show ascii "\"\n" = ascii "\"" ++ [10] from rfl, ← List.append_assoc]
      exact Lines.single (skipped_quoted hn)
    have hh : Lines (ascii (if vertex then "$NodeData\n" else "$ElementData\n")) := by
      cases vertex
      · exact hk "$ElementData" (hs _ (by decide))
      · exact hk "$NodeData" (hs _ (by decide))
    have he : Lines (ascii (if vertex then "$EndNodeData\n" else "$EndElementData\n")) := by
      cases vertex
      · exact hk "$EndElementData" (hs _ (by decide))
      · exact hk "$EndNodeData" (hs _ (by decide))
    exact ((((((((((hh.append h1).append hq).append h1).append (Lines.single (skipped_text hc time))).append h3).append
      (Lines.single (skipped_showNat _))).append (Lines.single (skipped_showNat _))).append (Lines.single (skipped_showNat _))).append hbody).append
      Lines.nil).append he

theorem mem_rstrip {b : Bytes} {x : Nat} (h : x ∈ rstrip b) : x ∈ b := by
  unfold rstrip at h
  rw [List.mem_reverse] at h
  exact List.mem_reverse.1 ((List.dropWhile_sublist _).subset h)

theorem writeData_lines {c : Codec F} (hc : c.Lawful) (vertex : Bool) (ids : List Nat) (timesteps : List F) {d : Data F} (hd : d.OneLine)
    {out : Bytes} (h : writeData c false vertex ids timesteps d = .ok out) : Lines out := by
  have hname : ∀ b ∈ rstrip d.description, 32 ≤ b ∧ b < 127 := fun b hb => hd b (mem_rstrip hb)
  have hsuf : ∀ s : String, (∀ b ∈ ascii s, 32 ≤ b ∧ b < 127) → ∀ b ∈ rstrip d.description ++ ascii s, 32 ≤ b ∧ b < 127 := fun s hs b hb => by
    rcases List.mem_append.1 hb with h | h
    · exact hname b h
    · exact hs b h
  have harr : ∀ (name : Bytes) (get : Nat → List (List F)) (n : Nat) (out : Bytes), (∀ b ∈ name, 32 ≤ b ∧ b < 127) →
      concatAll (fun i => do
        let t ← item timesteps i
        writeArray c false vertex ids name d.components (get i) t i) (List.range n) = .ok out → Lines out := by
    intro name get n out hn ho
    refine concatAll_lines ?_ ho
    intro i _ o ho
    cases hi : item timesteps i with
    | error e => rw [hi] at ho; cases ho
    | ok t =>
      rw [hi, bind_ok] at ho
      exact writeArray_lines hc vertex ids hn _ _ _ _ ho
  unfold writeData at h
  cases hi : d.imag with
  | none =>
    simp only [hi] at h
    generalize hr : concatAll _ (List.range d.real.length) = r at h
    cases r with
    | error e => cases h
    | ok real =>
      rw [bind_ok, pure_ok] at h
      cases h
      exact harr _ _ _ _ hname hr
  | some im =>
    simp only [hi] at h
    generalize hr : concatAll (fun i => do
        let t ← item timesteps i
        writeArray c false vertex ids (rstrip d.description ++ ascii " (real)") d.components (d.real.getD i []) t i) (List.range d.real.length) = r at h
    cases r with
    | error e => cases h
    | ok real =>
      rw [bind_ok] at h
      generalize hr' : concatAll _ (List.range d.real.length) = r' at h
      cases r' with
      | error e => cases h
      | ok imag =>
        rw [bind_ok, pure_ok] at h
        cases h
        exact (harr _ _ _ _ (hsuf " (real)" (by decide)) hr).append (harr _ _ _ _ (hsuf " (imag)" (by decide)) hr')

end Verif.Gmsh
