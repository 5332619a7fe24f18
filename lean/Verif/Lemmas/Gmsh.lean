import Verif.Spec.Gmsh
import Mathlib.Data.Nat.Digits.Lemmas
import Mathlib.Tactic.Linarith
/-
Lemmas about texts and bytes.
-/
namespace Verif.Gmsh
open Verif.Grid

/-- A word: printable characters. -/
def Word (b : Bytes) : Prop := b ≠ [] ∧ ∀ x ∈ b, 33 ≤ x ∧ x < 127

/-- A line of text without end. -/
def LineOk (b : Bytes) : Prop := (∀ x ∈ b, 32 ≤ x ∧ x < 127) ∧ ∀ x ∈ b.getLast?, x ≠ 32

theorem readline_append (l rest : Bytes) (h : 10 ∉ l) : readline (l ++ 10 :: rest) = (l ++ [10], rest) := by
  induction l with
  | nil => rfl
  | cons a l ih =>
    rw [List.mem_cons, not_or] at h
    show readline (a :: (l ++ 10 :: rest)) = _
    rw [readline, if_neg (Ne.symm h.1), ih h.2]
    rfl

theorem rstrip_append (l : Bytes) (h : LineOk l) : rstrip (l ++ [10]) = l := by
  unfold rstrip
  rw [List.reverse_append, List.reverse_singleton, List.singleton_append, List.dropWhile_cons_of_pos (by rfl)]
  cases hl : l.reverse with
  | nil =>
    rw [List.reverse_eq_nil_iff] at hl
    rw [hl]
    rfl
  | cons a t =>
    have hlast : l.getLast? = some a := by
      rw [← List.reverse_reverse l, hl]
      simp
    have ha := h.2 a (by rw [hlast]; rfl)
    have hm : a ∈ l := by
      rw [← List.mem_reverse, hl]
      exact List.mem_cons_self
    have hb := h.1 a hm
    rw [List.dropWhile_cons_of_neg, ← hl, List.reverse_reverse]
    simp only [isSpaceByte, Bool.or_eq_true, beq_iff_eq, Bool.and_eq_true, decide_eq_true_eq]
    omega

theorem decode_ascii {F : Type} (c : Codec F) {b : Bytes} (h : ∀ x ∈ b, x < 128) : decode c b = .ok b := by
  unfold decode
  rw [if_pos]
  rw [List.all_eq_true]
  intro x hx
  exact decide_eq_true (h x hx)

theorem line_append {F : Type} (c : Codec F) {l : Bytes} (rest : Bytes) (h : LineOk l) : line c (l ++ 10 :: rest) = .ok (l, rest) := by
  unfold line
  have h10 : 10 ∉ l := fun hh => by have := h.1 10 hh; omega
  rw [readline_append _ _ h10]
  dsimp only
  rw [rstrip_append l h, decode_ascii c fun x hx => by have := h.1 x hx; omega]
  rfl

theorem splitAux_word (cur w l : Bytes) (hw : ∀ x ∈ w, 33 ≤ x ∧ x < 127) : splitAux cur (w ++ l) = splitAux (w.reverse ++ cur) l := by
  induction w generalizing cur with
  | nil => rfl
  | cons a w ih =>
    have ha := hw a List.mem_cons_self
    show splitAux cur (a :: (w ++ l)) = _
    rw [splitAux, if_neg, ih _ fun x hx => hw x (List.mem_cons_of_mem _ hx), List.reverse_cons, List.append_assoc]
    · rfl
    · simp only [isSpace, Bool.or_eq_true, beq_iff_eq, Bool.and_eq_true, decide_eq_true_eq]
      omega

theorem split_cons {w : Bytes} (hw : Word w) (l : Bytes) : split (w ++ 32 :: l) = w :: split l := by
  unfold split
  rw [splitAux_word _ _ _ hw.2, List.append_nil, splitAux, if_pos (by rfl), if_neg (by simpa using hw.1), List.reverse_reverse]

theorem split_word {w : Bytes} (hw : Word w) : split w = [w] := by
  unfold split
  have := splitAux_word [] w [] hw.2
  rw [List.append_nil] at this
  rw [this, List.append_nil, splitAux, if_neg (by simpa using hw.1), List.reverse_reverse]

theorem lineOk_word {w : Bytes} (hw : Word w) : LineOk w :=
  ⟨fun x hx => by have := hw.2 x hx; omega, fun x hx => by
    have := hw.2 x (List.mem_of_getLast? hx)
    omega⟩

theorem lineOk_append {w l : Bytes} (hw : ∀ x ∈ w, 32 ≤ x ∧ x < 127) (hl : LineOk l) (hne : l ≠ []) : LineOk (w ++ l) := by
  constructor
  · intro x hx
    rcases List.mem_append.1 hx with hx | hx
    · exact hw x hx
    · exact hl.1 x hx
  · intro x hx
    rw [List.getLast?_append] at hx
    cases hg : l.getLast? with
    | none => exact absurd (List.getLast?_eq_none_iff.1 hg) hne
    | some y =>
      rw [hg] at hx
      exact hl.2 x (by rw [hg]; exact hx)

theorem lineOk_cons {w l : Bytes} (hw : Word w) (hl : LineOk l) (hne : l ≠ []) : LineOk (w ++ 32 :: l) := by
  have : w ++ 32 :: l = (w ++ [32]) ++ l := by simp
  rw [this]
  refine lineOk_append (fun x hx => ?_) hl hne
  rcases List.mem_append.1 hx with hx | hx
  · have := hw.2 x hx
    omega
  · rw [List.mem_singleton.1 hx]
    omega

theorem showNat_digits (n : Nat) : showNat n ≠ [] ∧ ∀ x ∈ showNat n, 48 ≤ x ∧ x ≤ 57 := by
  unfold showNat
  split
  · exact ⟨by simp, fun x hx => by rw [List.mem_singleton.1 hx]; omega⟩
  · rename_i h
    constructor
    · simpa [Nat.digits_eq_nil_iff_eq_zero] using h
    · intro x hx
      obtain ⟨d, hd, rfl⟩ := List.mem_map.1 hx
      have := Nat.digits_lt_base (b := 10) (by omega) (List.mem_reverse.1 hd)
      omega

theorem word_showNat (n : Nat) : Word (showNat n) :=
  ⟨(showNat_digits n).1, fun x hx => by have := (showNat_digits n).2 x hx; omega⟩

theorem parseNat_showNat (n : Nat) : parseNat (showNat n) = some n := by
  unfold parseNat
  rw [if_pos]
  · congr 1
    unfold showNat
    split
    · rename_i h
      rw [h]
      rfl
    · rw [← List.map_reverse, List.reverse_reverse, List.map_map]
      have : (Nat.digits 10 n).map ((· - 48) ∘ (· + 48)) = Nat.digits 10 n := by
        conv_rhs => rw [← List.map_id (Nat.digits 10 n)]
        apply List.map_congr_left
        intro x _
        simp
      rw [this, Nat.ofDigits_digits]
  · refine ⟨(showNat_digits n).1, ?_⟩
    rw [List.all_eq_true]
    intro x hx
    have := (showNat_digits n).2 x hx
    simp only [Bool.and_eq_true, decide_eq_true_eq]
    omega

theorem parseInt_showNat (n : Nat) : parseInt (showNat n) = some (n : Int) := by
  have h := showNat_digits n
  have hp := parseNat_showNat n
  cases hs : showNat n with
  | nil => exact absurd hs h.1
  | cons a l =>
    have ha := h.2 a (by rw [hs]; exact List.mem_cons_self)
    rw [hs] at hp
    have : parseInt (a :: l) = (parseNat (a :: l)).map fun n => (n : Int) := by
      unfold parseInt
      split
      · rename_i he
        have := (List.cons.inj he).1
        omega
      · rename_i he
        have := (List.cons.inj he).1
        omega
      · rfl
    rw [this, hp]
    rfl

theorem concatAll_ok {α : Type} {g : α → Except Exn Bytes} {h : α → Bytes} {l : List α} (hg : ∀ a ∈ l, g a = .ok (h a)) :
    concatAll g l = .ok (l.flatMap h) := by
  induction l with
  | nil => rfl
  | cons a l ih =>
    unfold concatAll
    rw [hg a List.mem_cons_self, ih fun a ha => hg a (List.mem_cons_of_mem _ ha)]
    rfl

/-- The four bytes of an integer. -/
def pk (n : Int) : Bytes :=
  let m := (n % 2 ^ 32).toNat
  [m % 256, m / 256 % 256, m / 65536 % 256, m / 16777216 % 256]

/-- A 32 bit integer. -/
def Fits (n : Int) : Prop := -(2 : Int) ^ 31 ≤ n ∧ n < 2 ^ 31

theorem packInt_ok {n : Int} (h : Fits n) : packInt n = .ok (pk n) := by
  unfold Fits at h
  unfold packInt
  rw [if_pos h]
  rfl

theorem pk_length (n : Int) : (pk n).length = 4 := rfl

theorem unpack_pk {n : Int} (h : Fits n) : unpackInt (pk n) = n := by
  unfold unpackInt pk Fits at *
  simp only [List.getD_cons_zero, List.getD_cons_succ]
  norm_num at h ⊢
  split <;> omega

theorem flatMap_length_const {α : Type} {f : α → Bytes} {k : Nat} {l : List α} (h : ∀ a ∈ l, (f a).length = k) : (l.flatMap f).length = l.length * k := by
  induction l with
  | nil => simp
  | cons a l ih =>
    rw [List.flatMap_cons, List.length_append, h a List.mem_cons_self, ih fun a ha => h a (List.mem_cons_of_mem _ ha), List.length_cons]
    ring

theorem drop_flatMap {α : Type} {f : α → Bytes} {k : Nat} {l : List α} (h : ∀ a ∈ l, (f a).length = k) (i : Nat) (hi : i < l.length) (rest : Bytes) :
    ∃ t, (l.flatMap f ++ rest).drop (k * i) = f l[i] ++ t := by
  induction l generalizing i with
  | nil => cases hi
  | cons a l ih =>
    rw [List.flatMap_cons, List.append_assoc]
    cases i with
    | zero => exact ⟨_, rfl⟩
    | succ i =>
      obtain ⟨t, ht⟩ := ih (fun a ha => h a (List.mem_cons_of_mem _ ha)) i (by simpa using hi)
      refine ⟨t, ?_⟩
      rw [show k * (i + 1) = k + k * i by ring, ← List.drop_drop, ← h a List.mem_cons_self, List.drop_left, h a List.mem_cons_self, ht]
      rfl

theorem readInts_ok {l : List Int} (h : ∀ n ∈ l, Fits n) (rest : Bytes) : readInts l.length (l.flatMap pk ++ rest) = .ok (l, rest) := by
  have hlen : (l.flatMap pk).length = 4 * l.length := by rw [flatMap_length_const (k := 4) fun a _ => pk_length a]; ring
  unfold readInts
  rw [if_pos]
  · congr 2
    · apply List.ext_getElem
      · simp
      · intro i h1 h2
        rw [List.getElem_map, List.getElem_range]
        obtain ⟨t, ht⟩ := drop_flatMap (f := pk) (k := 4) (fun a _ => pk_length a) i h2 rest
        rw [ht, show (4 : Nat) = (pk l[i]).length from rfl, List.take_left, unpack_pk (h _ (List.getElem_mem h2))]
    · rw [← hlen, List.drop_left]
  · rw [List.length_take, List.length_append, hlen]
    omega

end Verif.Gmsh
