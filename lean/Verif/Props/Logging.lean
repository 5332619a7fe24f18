import Verif.Spec.Logging
import Mathlib.Data.List.Induction
/-
C125: logging.
-/
namespace Verif.Logging

theorem levelAfter_append (calls : List Call) (c : Call) :
    levelAfter (calls ++ [c]) = match c with | .setLevel l => l | _ => levelAfter calls := by
  unfold levelAfter
  rw [List.reverse_append, List.reverse_singleton, List.singleton_append, List.findSome?_cons]
  cases c <;> rfl

theorem emits (level : Nat) (m : String) (hs : List Handler) (w : Target → List String) (t : Target) :
    (hs.foldl (emit level m) w) t = w t ++ List.replicate (((hs.filter fun h => h.target = t).map Handler.level).countP (· ≤ level)) m := by
  induction hs generalizing w with
  | nil => simp
  | cons h hs ih =>
    rw [List.foldl_cons, ih]
    unfold emit
    by_cases ht : h.target = t
    · rw [List.filter_cons_of_pos (by simpa using ht), List.map_cons, List.countP_cons]
      by_cases hl : h.level ≤ level
      · simp only [hl, if_true, ht, decide_true]
        rw [List.append_assoc, List.replicate_succ]; rfl
      · simp only [hl, if_false, decide_false]
        simp
    · rw [List.filter_cons_of_neg (by simpa using ht)]
      split
      · dsimp only
        rw [if_neg (fun h' : t = h.target => ht h'.symm)]
      · rfl

/-- What the state is after a history. -/
structure Inv (calls : List Call) (st : State) : Prop where
  level : st.level = levelAfter calls
  handlers : ∀ t, (st.handlers.filter fun h => h.target = t).map Handler.level = levelsAfter calls t
  console : st.consoleHandler.isSome ↔ levelsAfter calls .console ≠ []

theorem inv_run (w : Target → List String) (calls : List Call) : Inv calls ((State.init w).run calls) := by
  induction calls using List.reverseRecOn with
  | nil => exact ⟨rfl, fun t => by cases t <;> rfl, by simp [State.run, State.init, levelsAfter]⟩
  | append_singleton calls c ih =>
    obtain ⟨h1, h2, h3⟩ := ih
    have hrun : (State.init w).run (calls ++ [c]) = ((State.init w).run calls).call c := by simp [State.run, List.foldl_append]
    rw [hrun]
    generalize (State.init w).run calls = st at *
    have hfile : ∀ name, levelsAfter (calls ++ [c]) (.file name) = levelsAfter calls (.file name) ++
        (match c with | .enableFile n l => if n = name then [l] else [] | _ => []) := by
      intro name
      unfold levelsAfter
      dsimp only
      rw [List.filterMap_append]
      congr 1
      cases c <;> try rfl
      rename_i n l
      simp only [List.filterMap_cons, List.filterMap_nil]
      split <;> simp_all
    have hcons : levelsAfter (calls ++ [c]) .console = if levelsAfter calls .console = [] then
        (match c with | .enableConsole l => [l] | _ => []) else levelsAfter calls .console := by
      unfold levelsAfter
      dsimp only
      rw [List.findSome?_append]
      cases hf : calls.findSome? fun c => match c with | .enableConsole l => some l | _ => none with
      | none => cases c <;> simp
      | some l => simp
    refine ⟨?_, ?_, ?_⟩
    · rw [levelAfter_append]
      cases c <;> simp only [State.call]
      · split <;> exact h1
      · split <;> exact h1
      · exact h1
    · intro t
      cases c with
      | log m l =>
        have : (st.call (.log m l)).handlers = st.handlers := by simp only [State.call]; split <;> rfl
        rw [this, h2]
        cases t with
        | console => rw [hcons]; split <;> simp_all
        | file name => rw [hfile]; simp
      | setLevel l =>
        show (st.handlers.filter _).map _ = _
        rw [h2]
        cases t with
        | console => rw [hcons]; split <;> simp_all
        | file name => rw [hfile]; simp
      | enableFile n l =>
        show ((st.handlers ++ [(⟨.file n, l⟩ : Handler)]).filter _).map _ = _
        rw [List.filter_append, List.map_append, h2]
        cases t with
        | console => rw [hcons]; split <;> simp_all
        | file name =>
          rw [hfile]
          congr 1
          by_cases hn : n = name <;> simp [hn]
      | enableConsole l =>
        simp only [State.call]
        split
        · rename_i hc
          have he : levelsAfter calls .console = [] := by
            by_contra hne
            have := h3.2 hne
            rw [hc] at this; cases this
          rw [List.filter_append, List.map_append, h2]
          cases t with
          | console => rw [hcons, he]; simp
          | file name => rw [hfile]; simp
        · rename_i hh hc
          have he : levelsAfter calls .console ≠ [] := h3.1 (by rw [hc]; rfl)
          rw [h2]
          cases t with
          | console => rw [hcons, if_neg he]
          | file name => rw [hfile]; simp
    · rw [hcons]
      cases c with
      | log m l =>
        have : (st.call (.log m l)).consoleHandler = st.consoleHandler := by simp only [State.call]; split <;> rfl
        rw [this, h3]
        split <;> simp_all
      | setLevel l => exact h3.trans (by split <;> simp_all)
      | enableFile n l => exact h3.trans (by split <;> simp_all)
      | enableConsole l =>
        simp only [State.call]
        split
        · split <;> simp_all
        · rename_i hh hc
          have he : levelsAfter calls .console ≠ [] := h3.1 (by rw [hc]; rfl)
          rw [hc, if_neg he]; simp [he]

/-- **C125, partial (delivery).**  After any history of logging calls, what has been added to the console and to each file are the messages whose
level is high enough, in order: once on the console if it has been enabled (once or more often), and in a file once for each call that
enabled it. -/
theorem C125_delivery_partial (w : Target → List String) (calls : List Call) (t : Target) :
    ∃ out, Writes t calls out ∧ ((State.init w).run calls).written t = w t ++ out := by
  induction calls using List.reverseRecOn with
  | nil => exact ⟨[], .nil, by simp [State.run, State.init]⟩
  | append_singleton calls c ih =>
    obtain ⟨out, h1, h2⟩ := ih
    have hrun : (State.init w).run (calls ++ [c]) = ((State.init w).run calls).call c := by simp [State.run, List.foldl_append]
    have hinv := inv_run w calls
    rw [hrun]
    generalize (State.init w).run calls = st at *
    cases c with
    | log m l =>
      refine ⟨_, .log h1, ?_⟩
      simp only [State.call]
      unfold copies
      rw [← hinv.level]
      split
      · rw [← hinv.handlers]
        show (st.handlers.foldl (emit l m) st.written) t = _
        rw [emits, h2, List.append_assoc]
      · rw [h2]; simp
    | setLevel l => exact ⟨out, .other h1 (fun m l h => by cases h), h2⟩
    | enableFile n l => exact ⟨out, .other h1 (fun m l h => by cases h), h2⟩
    | enableConsole l =>
      refine ⟨out, .other h1 (fun m l h => by cases h), ?_⟩
      simp only [State.call]
      split <;> exact h2

/-- **C125 (timing).**  With extended verbosity off the decorated functions return what the functions return and raise what they raise. -/
theorem C125_transparent {α β E : Type} (f : α → Except E β) (x : α) :
    (∀ r, timed false f x = .ok r ↔ f x = .ok r) ∧ (∀ e, timed false f x = .error (.own e) ↔ f x = .error e) ∧
    timed false f x ≠ .error .NameError := by
  unfold timed
  simp only [if_true]
  refine ⟨fun r => ?_, fun e => ?_, ?_⟩ <;> cases f x <;> simp

/-- **C125, counterexample.**  With extended verbosity every timed function that would return a result raises a `NameError` after it has run. -/
theorem C125_counterexample_verbose {α β E : Type} (f : α → Except E β) (x : α) (r : β) (h : f x = .ok r) :
    timed true f x = .error .NameError := by unfold timed; simp [h]

/-- **C125, counterexample.**  The level of a second call that enables the console is ignored, and a file that is enabled twice gets every
message twice. -/
theorem C125_counterexample_twice :
    ((State.init fun _ => []).run [.enableConsole DEBUG, .enableConsole 40, .log "m" INFO]).written .console = ["m"] ∧
    ((State.init fun _ => []).run [.enableFile "a" DEBUG, .enableFile "a" DEBUG, .log "m" INFO]).written (.file "a") = ["m", "m"] := by
  constructor <;> decide +kernel

/-- A history with messages below and above the levels. -/
example : ((State.init fun _ => []).run [.log "a" INFO, .enableConsole INFO, .log "b" DEBUG, .enableFile "f" DEBUG, .log "c" DEBUG,
    .log "d" INFO, .setLevel 30, .log "e" INFO]).written .console = ["d"] ∧
    ((State.init fun _ => []).run [.log "a" INFO, .enableConsole INFO, .log "b" DEBUG, .enableFile "f" DEBUG, .log "c" DEBUG,
    .log "d" INFO, .setLevel 30, .log "e" INFO]).written (.file "f") = ["c", "d"] := by
  constructor <;> decide +kernel

end Verif.Logging
