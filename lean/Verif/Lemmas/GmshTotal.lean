import Verif.Lemmas.GmshImport
/-
The Gmsh reader terminates.
-/
namespace Verif.Gmsh
open Verif.Grid

variable {F : Type}

/-- A step of the reader: it leaves at most `n` bytes, or raises an exception. -/
def Safe {α : Type} (n : Nat) (len : α → Nat) : Except Exn α → Prop
  | .ok a => len a ≤ n
  | .error e => e ≠ .OutOfFuel

theorem Safe.bind {α β : Type} {n : Nat} {len : α → Nat} {len' : β → Nat} {r : Except Exn α} {f : α → Except Exn β} (h : Safe n len r)
    (hf : ∀ a, r = .ok a → len a ≤ n → Safe n len' (f a)) : Safe n len' (r >>= f) := by
  cases r with
  | error e => exact h
  | ok a => exact hf a rfl h

theorem Safe.mono {α : Type} {m n : Nat} {len : α → Nat} {r : Except Exn α} (h : Safe m len r) (hmn : m ≤ n) : Safe n len r := by
  cases r with
  | error e => exact h
  | ok a => exact le_trans h hmn

theorem safe_orValueError {α : Type} (n : Nat) (o : Option α) : Safe n (fun _ => 0) (orValueError o) := by
  cases o with
  | none => intro h; cases h
  | some a => exact Nat.zero_le _

theorem readline_length (f : Bytes) : (readline f).1.length + (readline f).2.length = f.length := by
  induction f with
  | nil => rfl
  | cons b l ih =>
    unfold readline
    split
    · simp; omega
    · simp only [List.length_cons]
      omega

theorem safe_decode (c : Codec F) (n : Nat) (b : Bytes) : Safe n (fun _ => 0) (decode c b) := by
  unfold decode
  split
  · exact Nat.zero_le _
  · split
    · exact Nat.zero_le _
    · intro h; cases h

theorem safe_line (c : Codec F) (f : Bytes) : Safe f.length (fun r => r.2.length) (line c f) := by
  unfold line
  refine (safe_decode c _ _).bind fun s _ _ => ?_
  have := readline_length f
  show (readline f).2.length ≤ f.length
  omega

theorem safe_readInts (n : Nat) (f : Bytes) : Safe f.length (fun r => r.2.length) (readInts n f) := by
  unfold readInts
  split
  · show (f.drop (4 * n)).length ≤ f.length
    rw [List.length_drop]
    omega
  · intro h; cases h

theorem safe_readVertex (c : Codec F) (n : Nat) (s : Bytes) : Safe n (fun _ => 0) (readVertex c s) := by
  unfold readVertex
  split
  · exact (safe_orValueError _ _).bind fun _ _ _ => (safe_orValueError _ _).bind fun _ _ _ => (safe_orValueError _ _).bind fun _ _ _ =>
      (safe_orValueError _ _).bind fun _ _ _ => Nat.zero_le _
  · intro h; cases h

theorem safe_readElement (n : Nat) (s : Bytes) : Safe n (fun _ => 0) (readElement s) := by
  unfold readElement
  refine (safe_orValueError _ _).bind fun _ _ _ => (safe_orValueError _ _).bind fun t _ _ => ?_
  split
  · exact Nat.zero_le _
  · exact (safe_orValueError _ _).bind fun _ _ _ => (safe_orValueError _ _).bind fun _ _ _ => (safe_orValueError _ _).bind fun _ _ _ =>
      (safe_orValueError _ _).bind fun _ _ _ => Nat.zero_le _

theorem safe_readVertices (c : Codec F) (k : Nat) (s f : Bytes) : Safe f.length (fun r => r.2.2.length) (readVertices c k s f) := by
  induction k generalizing s f with
  | zero =>
    unfold readVertices
    exact (safe_readVertex c _ s).bind fun _ _ _ => by intro h; cases h
  | succ k ih =>
    unfold readVertices
    refine (safe_readVertex c _ s).bind fun _ _ _ => (safe_line c f).bind fun r _ hr => ?_
    obtain ⟨s', f'⟩ := r
    dsimp only at hr ⊢
    split
    · exact hr
    · split
      · intro h; cases h
      · exact ((ih s' f').mono hr).bind fun r _ hr => hr

theorem safe_readElements (c : Codec F) (k : Nat) (s f : Bytes) : Safe f.length (fun r => r.2.2.length) (readElements c k s f) := by
  induction k generalizing s f with
  | zero =>
    unfold readElements
    split
    · exact le_refl _
    · intro h; cases h
  | succ k ih =>
    unfold readElements
    split
    · intro h; cases h
    · refine (safe_readElement _ s).bind fun _ _ _ => (safe_line c f).bind fun r _ hr => ?_
      obtain ⟨s', f'⟩ := r
      dsimp only at hr ⊢
      split
      · exact hr
      · exact ((ih s' f').mono hr).bind fun r _ hr => hr

theorem safe_readVerticesBinary (c : Codec F) (n d : Nat) (f : Bytes) : Safe f.length (fun r => r.2.length) (readVerticesBinary c n d f) := by
  have h : (f.drop (n * (4 + 3 * d))).length ≤ f.length := by rw [List.length_drop]; omega
  unfold readVerticesBinary
  dsimp only
  split
  · intro h; cases h
  · split
    · exact h
    · split
      · exact h
      · intro h; cases h

theorem safe_readBlock (type : Int) (ntags nnodes k : Nat) (f : Bytes) : Safe f.length (fun r => r.2.length) (readBlock type ntags nnodes k f) := by
  induction k generalizing f with
  | zero => exact le_refl _
  | succ k ih =>
    unfold readBlock
    refine (safe_readInts 1 f).bind fun r _ h1 => ?_
    obtain ⟨i1, f1⟩ := r
    dsimp only at h1 ⊢
    refine ((safe_readInts ntags f1).mono h1).bind fun r _ h2 => ?_
    obtain ⟨i2, f2⟩ := r
    dsimp only at h2 ⊢
    refine ((safe_readInts nnodes f2).mono h2).bind fun r _ h3 => ?_
    obtain ⟨i3, f3⟩ := r
    dsimp only at h3 ⊢
    have key : ∀ e : List FileElement, Safe f.length (fun r : List FileElement × Bytes => r.2.length)
        ((Except.ok e : Except Exn (List FileElement)) >>= fun e => readBlock type ntags nnodes k f3 >>= fun r => pure (e ++ r.1, r.2)) := fun e =>
      ((ih f3).mono h3).bind fun r _ hr => hr
    split
    · split
      · exact key _
      · intro h; cases h
    · exact key _

theorem readInts_length {n : Nat} {f : Bytes} {r : List Int × Bytes} (h : readInts n f = .ok r) : r.2.length + 4 * n = f.length := by
  unfold readInts at h
  split at h
  · rename_i hl
    rw [List.length_take] at hl
    cases h
    rw [List.length_drop]
    omega
  · cases h

theorem safe_readBlocks (fuel : Nat) (number count : Int) (f : Bytes) (hf : f.length < fuel) :
    Safe f.length (fun r => r.2.length) (readBlocks fuel number count f) := by
  induction fuel generalizing count f with
  | zero => omega
  | succ fuel ih =>
    unfold readBlocks
    split
    · refine (safe_readInts 3 f).bind fun r hr h1 => ?_
      have hl := readInts_length hr
      obtain ⟨i1, f1⟩ := r
      dsimp only at h1 hl ⊢
      split
      · rename_i nn _
        rw [bind_ok]
        split
        · intro h; cases h
        · refine ((safe_readBlock _ _ _ _ f1).mono h1).bind fun r hr h2 => ?_
          have h3 := safe_readBlock (i1.getD 0 0) (i1.getD 2 0).toNat nn (i1.getD 1 0).toNat f1
          rw [hr] at h3
          obtain ⟨i2, f2⟩ := r
          change f2.length ≤ f1.length at h3
          dsimp only at h2 ⊢
          exact ((ih _ f2 (by omega)).mono h2).bind fun r _ hr => hr
      · intro h; cases h
    · exact le_refl _

theorem safe_readFormat (c : Codec F) (p : Parsed F) (f : Bytes) : Safe f.length (fun r => r.2.length) (readFormat c p f) := by
  unfold readFormat
  refine (safe_line c f).bind fun r _ h1 => ?_
  obtain ⟨s1, f1⟩ := r
  dsimp only at h1 ⊢
  split
  · intro h; cases h
  · split
    · intro h; cases h
    · have fin : ∀ (q : Parsed F) (f2 : Bytes), f2.length ≤ f.length → Safe f.length (fun r => r.2.length)
          (line c f2 >>= fun r => if r.1 ≠ ascii "$EndMeshFormat" then Except.error Exn.ValueError else Except.ok (q, r.2)) := by
        intro q f2 h2
        refine ((safe_line c f2).mono h2).bind fun r _ h4 => ?_
        obtain ⟨s4, f4⟩ := r
        dsimp only at h4 ⊢
        split
        · intro h; cases h
        · exact h4
      split
      · refine (safe_orValueError _ _).bind fun type _ _ => ?_
        split
        · refine (safe_orValueError _ _).bind fun size _ _ => ?_
          split
          · refine ((safe_readInts 1 f1).mono h1).bind fun r _ h3 => ?_
            obtain ⟨i, f3⟩ := r
            dsimp only at h3 ⊢
            have := readline_length f3
            split
            · intro h; cases h
            · exact fin _ _ (by omega)
          · exact fin _ _ h1
        · intro h; cases h
      · intro h; cases h

theorem safe_readNodes (c : Codec F) (p : Parsed F) (f : Bytes) : Safe f.length (fun r => r.2.length) (readNodes c p f) := by
  unfold readNodes
  refine (safe_line c f).bind fun r _ h1 => ?_
  obtain ⟨s1, f1⟩ := r
  dsimp only at h1 ⊢
  refine (safe_orValueError _ _).bind fun n _ _ => ?_
  split
  · intro h; cases h
  · have fin : ∀ (vs : List (Int × P3 F)) (s2 f2 : Bytes), f2.length ≤ f.length → Safe f.length (fun r => r.2.length)
        (if s2 ≠ ascii "$EndNodes" then Except.error Exn.ValueError else Except.ok ({ p with vertices := some vs }, f2)) := by
      intro vs s2 f2 h2
      split
      · intro h; cases h
      · exact h2
    split
    · refine ((safe_readVerticesBinary c _ _ f1).mono h1).bind fun r _ h3 => ?_
      obtain ⟨i, f3⟩ := r
      dsimp only at h3 ⊢
      refine ((safe_line c f3).mono h3).bind fun r _ h4 => ?_
      obtain ⟨s4, f4⟩ := r
      dsimp only at h4 ⊢
      exact ((safe_line c f4).mono h4).bind fun r _ h5 => fin _ _ _ h5
    · have := readline_length f1
      exact ((safe_readVertices c _ _ _).mono (by omega)).bind fun r _ h5 => fin _ _ _ h5

theorem safe_readElementsSection (c : Codec F) (p : Parsed F) (f : Bytes) : Safe f.length (fun r => r.2.length) (readElementsSection c p f) := by
  unfold readElementsSection
  refine (safe_line c f).bind fun r _ h1 => ?_
  obtain ⟨s1, f1⟩ := r
  dsimp only at h1 ⊢
  refine (safe_orValueError _ _).bind fun n _ _ => ?_
  have fin : ∀ (es : List FileElement) (s2 f2 : Bytes), f2.length ≤ f.length → Safe f.length (fun r => r.2.length)
      (if s2 ≠ ascii "$EndElements" then Except.error Exn.ValueError else Except.ok ({ p with elements := some es }, f2)) := by
    intro es s2 f2 h2
    split
    · intro h; cases h
    · exact h2
  split
  · refine ((safe_readBlocks _ n 0 f1 (by omega)).mono h1).bind fun r _ h3 => ?_
    obtain ⟨i, f3⟩ := r
    dsimp only at h3 ⊢
    refine ((safe_line c f3).mono h3).bind fun r _ h4 => ?_
    obtain ⟨s4, f4⟩ := r
    dsimp only at h4 ⊢
    exact ((safe_line c f4).mono h4).bind fun r _ h5 => fin _ _ _ h5
  · refine ((safe_line c f1).mono h1).bind fun r _ h3 => ?_
    obtain ⟨s3, f3⟩ := r
    dsimp only at h3 ⊢
    split
    · intro h; cases h
    · exact ((safe_readElements c _ _ _).mono h3).bind fun r _ h5 => fin _ _ _ h5

theorem line_consumes (c : Codec F) {f s f' : Bytes} (h : line c f = .ok (s, f')) (hs : s ≠ []) : f'.length < f.length := by
  unfold line at h
  cases hd : decode c (rstrip (readline f).1) with
  | error e => rw [hd] at h; cases h
  | ok t =>
    rw [hd, bind_ok, pure_ok] at h
    cases h
    have hl := readline_length f
    have h1 : (readline f).1 ≠ [] := by
      intro h0
      rw [h0] at hd
      change (Except.ok [] : Except Exn Bytes) = Except.ok s at hd
      cases hd
      exact hs rfl
    have := List.length_pos_of_ne_nil h1
    omega

theorem safe_parseLoop (c : Codec F) (fuel : Nat) (p : Parsed F) (f : Bytes) (hf : f.length < fuel) : Safe 0 (fun _ => 0) (parseLoop c fuel p f) := by
  induction fuel generalizing p f with
  | zero => omega
  | succ fuel ih =>
    unfold parseLoop
    cases hline : line c f with
    | error e =>
      have := safe_line c f
      rw [hline] at this
      exact this
    | ok r =>
      obtain ⟨s, f1⟩ := r
      rw [bind_ok]
      dsimp only
      split
      · exact Nat.zero_le _
      · rename_i hs
        have h1 := line_consumes c hline hs
        have key : ∀ r : Except Exn (Parsed F × Bytes), Safe f1.length (fun r => r.2.length) r →
            Safe 0 (fun _ => 0) (r >>= fun r => parseLoop c fuel r.1 r.2) := by
          intro r hr
          cases r with
          | error e => exact hr
          | ok a =>
            change a.2.length ≤ f1.length at hr
            exact ih a.1 a.2 (by omega)
        split
        · exact key _ (safe_readFormat c p f1)
        · split
          · exact key _ (safe_readNodes c p f1)
          · split
            · exact key _ (safe_readElementsSection c p f1)
            · exact ih p f1 (by omega)

end Verif.Gmsh
