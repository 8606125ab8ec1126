import Verif.Model.Main
import Verif.Props.Generator
import Verif.Props.Canonical
import Verif.Props.Expected
/-
C60 (exit status, output and diagnostics of the program), C61 (what a failed run leaves behind), C62 (the generated text does
not depend on the layout of the schema).
-/
set_option autoImplicit false
namespace PG.Gen
open PG.Proto

variable (rt : Runtime)

/-- A text the compiler accepts: the parser does, the options of the file and of the fields have the right types and no
quotes, no message contains itself, and no message has more than 64 fields. -/
def Acceptable (N : Nat) (text : Bytes) : Prop :=
  ∃ t, parse N text = .ok t ∧ FileOptionsOk t.options ∧ ¬ Circular t.messages ∧
    ∀ m ∈ t.messages, m.fields.length ≤ 64 ∧ ∀ f ∈ m.fields, FieldOptionsOk f

theorem deliver_status (w : World) (content : Bytes → Option Bytes) (out : Option Bytes) (status : Option Nat) (text stderr : Bytes) :
    (deliver w content out status text stderr).status = status ∧ (deliver w content out status text stderr).stderr = stderr := by
  cases out <;> exact ⟨rfl, rfl⟩

theorem fit_nil (room : Option Nat) : fit room [] = [] := by cases room <;> simp [fit]

/-- The cases of `work`. -/
theorem work_cases (N : Nat) (w : World) (path input : Bytes) (out : Option Bytes) (content : Bytes → Option Bytes) :
    (w.realpath path = none ∧ work rt N w path input out content = { status := some 1, stdout := [], stderr := [], content }) ∨
    ∃ full, w.realpath path = some full ∧
      ((∃ t, parse N ((content input).getD []) = .ok t ∧
          (((output full t).res = .ok () ∧ work rt N w path input out content =
              deliver w content out (some 0) (textOf rt (output full t).calls) []) ∨
            ∃ x, (output full t).res = .exc x ∧ work rt N w path input out content =
              deliver w content out (some 1) (textOf rt (output full t).calls) (diagnostic full x.text x.line x.col))) ∨
        (∃ x, parse N ((content input).getD []) = .exc x ∧ work rt N w path input out content =
            deliver w content out (some 1) [] (diagnostic full (excText x) x.line x.col)) ∨
        (parse N ((content input).getD []) = .fuel ∧ work rt N w path input out content = deliver w content out none [] [])) := by
  unfold work
  cases hp : w.realpath path with
  | none => exact .inl ⟨rfl, rfl⟩
  | some full =>
    refine .inr ⟨full, rfl, ?_⟩
    simp only
    rcases C44_only_protogen_exceptions N ((content input).getD []) with ⟨t, h⟩ | ⟨x, h, -⟩ | h
    · have hc : compile N full ((content input).getD []) = .generated (output full t) := by unfold compile; rw [h]
      refine .inl ⟨t, h, ?_⟩
      rw [hc]
      simp only
      have := output_ends h full
      cases hr : (output full t).res with
      | ok a => exact .inl ⟨rfl, rfl⟩
      | exc x => exact .inr ⟨x, rfl, rfl⟩
      | running => exact absurd hr this
    · have hc : compile N full ((content input).getD []) = .rejected x := by unfold compile; rw [h]
      rw [hc]
      exact .inr (.inl ⟨x, h, rfl⟩)
    · have hc : compile N full ((content input).getD []) = .running := by unfold compile; rw [h]
      rw [hc]
      exact .inr (.inr ⟨h, rfl⟩)

theorem work_zero_iff (N : Nat) (w : World) (path input : Bytes) (out : Option Bytes) (content : Bytes → Option Bytes) :
    (work rt N w path input out content).status = some 0 ↔
      (∃ full, w.realpath path = some full) ∧ Acceptable N ((content input).getD []) := by
  rcases work_cases rt N w path input out content with ⟨h, e⟩ | ⟨full, h, ⟨t, ht, ⟨hr, e⟩ | ⟨x, hr, e⟩⟩ | ⟨x, hx, e⟩ | ⟨hx, e⟩⟩
  · rw [e, h]; simp
  · rw [e, (deliver_status _ _ _ _ _ _).1]
    refine ⟨fun _ => ⟨⟨full, h⟩, t, ht, (output_ok_iff ht full).mp hr⟩, fun _ => rfl⟩
  · rw [e, (deliver_status _ _ _ _ _ _).1]
    refine ⟨fun h => (by cases h), fun ⟨_, t', ht', hg⟩ => ?_⟩
    rw [ht] at ht'
    cases ht'
    rw [(output_ok_iff ht full).mpr hg] at hr
    cases hr
  · rw [e, (deliver_status _ _ _ _ _ _).1]
    refine ⟨fun h => (by cases h), fun ⟨_, t', ht', hg⟩ => ?_⟩
    rw [hx] at ht'
    cases ht'
  · rw [e, (deliver_status _ _ _ _ _ _).1]
    refine ⟨fun h => (by cases h), fun ⟨_, t', ht', hg⟩ => ?_⟩
    rw [hx] at ht'
    cases ht'

theorem openIn_iff (w : World) (path f : Bytes) :
    w.openIn path = some f ↔ w.file path = some f ∧ w.canRead f = true ∧ ∃ text, w.content f = some text := by
  unfold World.openIn
  cases hf : w.file path with
  | none => simp
  | some g =>
    simp only [Option.some.injEq]
    constructor
    · intro h
      split at h
      · rename_i hc
        simp only [Bool.and_eq_true, Option.isSome_iff_exists] at hc
        cases h
        exact ⟨rfl, hc.2, hc.1⟩
      · cases h
    · rintro ⟨rfl, h1, text, h2⟩
      rw [if_pos (by simp [h1, h2])]

theorem openOut_iff (w : World) (path f : Bytes) : w.openOut path = some f ↔ w.file path = some f ∧ w.canWrite f = true := by
  unfold World.openOut
  cases hf : w.file path with
  | none => simp
  | some g =>
    simp only [Option.some.injEq]
    constructor
    · intro h
      split at h
      · cases h; exact ⟨rfl, by assumption⟩
      · cases h
    · rintro ⟨rfl, h⟩
      rw [if_pos h]

/-! ### C60 -/

/-- C60, without an output file: the exit status is 0 exactly when the schema could be opened and is acceptable. -/
theorem C60_status_to_stdout (N : Nat) (w : World) (i : Bytes) :
    (main rt N w [i]).status = some 0 ↔
      ∃ fi text, w.file i = some fi ∧ w.canRead fi = true ∧ w.content fi = some text ∧
        (∃ full, w.realpath i = some full) ∧ Acceptable N text := by
  cases h : w.openIn i with
  | none =>
    simp only [main, h, Option.some.injEq, Nat.one_ne_zero, false_iff]
    rintro ⟨fi, text, h1, h2, h3, -⟩
    rw [(openIn_iff w i fi).mpr ⟨h1, h2, text, h3⟩] at h
    cases h
  | some fi =>
    obtain ⟨h1, h2, text, h3⟩ := (openIn_iff w i fi).mp h
    simp only [main, h]
    rw [work_zero_iff, h3]
    constructor
    · rintro ⟨a, b⟩; exact ⟨fi, text, h1, h2, h3, a, b⟩
    · rintro ⟨fi', text', h1', h2', h3', a, b⟩
      rw [h1] at h1'; cases h1'
      rw [h3] at h3'; cases h3'
      exact ⟨a, b⟩

/-- C60, with an output file: both files could be opened and the schema is acceptable.  The schema is read after the
output file was emptied. -/
theorem C60_status_to_file (N : Nat) (w : World) (i o : Bytes) :
    (main rt N w [i, o]).status = some 0 ↔
      ∃ fi text fo, w.file i = some fi ∧ w.canRead fi = true ∧ w.content fi = some text ∧
        w.file o = some fo ∧ w.canWrite fo = true ∧
        (∃ full, w.realpath i = some full) ∧ Acceptable N (if fi = fo then [] else text) := by
  cases h : w.openIn i with
  | none =>
    simp only [main, h, Option.some.injEq, Nat.one_ne_zero, false_iff]
    rintro ⟨fi, text, fo, h1, h2, h3, -⟩
    rw [(openIn_iff w i fi).mpr ⟨h1, h2, text, h3⟩] at h
    cases h
  | some fi =>
    obtain ⟨h1, h2, text, h3⟩ := (openIn_iff w i fi).mp h
    cases h' : w.openOut o with
    | none =>
      simp only [main, h, h', Option.some.injEq, Nat.one_ne_zero, false_iff]
      rintro ⟨fi', text', fo, -, -, -, h4, h5, -⟩
      rw [(openOut_iff w o fo).mpr ⟨h4, h5⟩] at h'
      cases h'
    | some fo =>
      obtain ⟨h4, h5⟩ := (openOut_iff w o fo).mp h'
      simp only [main, h, h']
      have e : (put w.content fo [] fi).getD [] = if fi = fo then [] else text := by
        unfold put
        split
        · rfl
        · rw [h3]; rfl
      rw [work_zero_iff, e]
      constructor
      · rintro ⟨a, b⟩; exact ⟨fi, text, fo, h1, h2, h3, h4, h5, a, b⟩
      · rintro ⟨fi', text', fo', h1', h2', h3', h4', h5', a, b⟩
        rw [h1] at h1'; cases h1'
        rw [h3] at h3'; cases h3'
        rw [h4] at h4'; cases h4'
        exact ⟨a, b⟩

/-- What exit status 0 means for the output: the whole generated text was written, to standard output or to the output
file, as far as there was room (`fit`; see C70); nothing was written to standard error and no other file was changed. -/
theorem C60_output (N : Nat) (w : World) (argv : List Bytes) (h : (main rt N w argv).status = some 0) :
    (main rt N w argv).stderr = [] ∧
    ∃ i full text t, w.realpath i = some full ∧ parse N text = .ok t ∧ (output full t).res = .ok () ∧
      ((argv = [i] ∧ (main rt N w argv).stdout = fit w.outRoom (textOf rt (output full t).calls) ∧
          (main rt N w argv).content = w.content) ∨
        ∃ o fo, argv = [i, o] ∧ w.file o = some fo ∧ (main rt N w argv).stdout = [] ∧
          (main rt N w argv).content fo = some (fit (w.room fo) (textOf rt (output full t).calls)) ∧
          ∀ f, f ≠ fo → (main rt N w argv).content f = w.content f) := by
  have key : ∀ (i fi : Bytes) (out : Option Bytes) (content : Bytes → Option Bytes),
      (work rt N w i fi out content).status = some 0 → ∃ full t, w.realpath i = some full ∧
        parse N ((content fi).getD []) = .ok t ∧ (output full t).res = .ok () ∧
        work rt N w i fi out content = deliver w content out (some 0) (textOf rt (output full t).calls) [] := by
    intro i fi out content h
    rcases work_cases rt N w i fi out content with ⟨hr, e⟩ | ⟨full, hr, ⟨t, ht, ⟨hx, e⟩ | ⟨x, hx, e⟩⟩ | ⟨x, hx, e⟩ | ⟨hx, e⟩⟩
    · rw [e] at h; cases h
    · exact ⟨full, t, hr, ht, hx, e⟩
    · rw [e, (deliver_status _ _ _ _ _ _).1] at h; cases h
    · rw [e, (deliver_status _ _ _ _ _ _).1] at h; cases h
    · rw [e, (deliver_status _ _ _ _ _ _).1] at h; cases h
  match argv, h with
  | [], h => cases h
  | [i], h =>
    simp only [main] at h ⊢
    cases hi : w.openIn i with
    | none => rw [hi] at h; cases h
    | some fi =>
      rw [hi] at h
      obtain ⟨full, t, h1, h2, h3, h4⟩ := key i fi none w.content h
      simp only [h4, deliver]
      exact ⟨trivial, i, full, _, t, h1, h2, h3, .inl ⟨rfl, rfl, trivial⟩⟩
  | [i, o], h =>
    simp only [main] at h ⊢
    cases hi : w.openIn i with
    | none => rw [hi] at h; cases h
    | some fi =>
      rw [hi] at h
      simp only at h ⊢
      cases ho : w.openOut o with
      | none => rw [ho] at h; cases h
      | some fo =>
        rw [ho] at h
        obtain ⟨full, t, h1, h2, h3, h4⟩ := key i fi (some fo) (put w.content fo []) h
        simp only [h4, deliver]
        refine ⟨trivial, i, full, _, t, h1, h2, h3, .inr ⟨o, fo, rfl, ((openOut_iff w o fo).mp ho).1, trivial, by simp [put], ?_⟩⟩
        intro f hf
        simp [put, hf]
  | _ :: _ :: _ :: _, h => cases h

/-- A failed run explains itself: on standard error are the instructions, the file that could not be opened, or the
position and the reason; except that nothing is said if `realpath` fails. -/
theorem C60_failure_explained (N : Nat) (w : World) (argv : List Bytes) (n : Nat) (hn : n ≠ 0)
    (h : (main rt N w argv).status = some n) :
    n = 1 ∧ ((main rt N w argv).stderr = usage ∨
      (∃ p ∈ argv, (main rt N w argv).stderr = cannotOpen p) ∨
      (∃ i ∈ argv, ∃ full why line col, w.realpath i = some full ∧
        (main rt N w argv).stderr = diagnostic full why line col) ∨
      (∃ i ∈ argv, w.realpath i = none ∧ (main rt N w argv).stderr = [])) := by
  have key : ∀ (i fi : Bytes) (out : Option Bytes) (content : Bytes → Option Bytes),
      (work rt N w i fi out content).status = some n → n = 1 ∧
        ((∃ full why line col, w.realpath i = some full ∧ (work rt N w i fi out content).stderr = diagnostic full why line col) ∨
          (w.realpath i = none ∧ (work rt N w i fi out content).stderr = [])) := by
    intro i fi out content h
    rcases work_cases rt N w i fi out content with ⟨hr, e⟩ | ⟨full, hr, ⟨t, ht, ⟨hx, e⟩ | ⟨x, hx, e⟩⟩ | ⟨x, hx, e⟩ | ⟨hx, e⟩⟩
    · rw [e] at h ⊢; cases h; exact ⟨rfl, .inr ⟨hr, rfl⟩⟩
    · rw [e, (deliver_status _ _ _ _ _ _).1] at h; cases h; exact absurd rfl hn
    · rw [e, (deliver_status _ _ _ _ _ _).1] at h; cases h
      exact ⟨rfl, .inl ⟨full, _, _, _, hr, by rw [e, (deliver_status _ _ _ _ _ _).2]⟩⟩
    · rw [e, (deliver_status _ _ _ _ _ _).1] at h; cases h
      exact ⟨rfl, .inl ⟨full, _, _, _, hr, by rw [e, (deliver_status _ _ _ _ _ _).2]⟩⟩
    · rw [e, (deliver_status _ _ _ _ _ _).1] at h; cases h
  match argv, h with
  | [], h => cases h; exact ⟨rfl, .inl rfl⟩
  | [i], h =>
    simp only [main] at h ⊢
    cases hi : w.openIn i with
    | none => rw [hi] at h; cases h; exact ⟨rfl, .inr (.inl ⟨i, by simp, rfl⟩)⟩
    | some fi =>
      rw [hi] at h
      obtain ⟨h1, ⟨full, why, line, col, h2, h3⟩ | ⟨h2, h3⟩⟩ := key i fi none w.content h
      · exact ⟨h1, .inr (.inr (.inl ⟨i, by simp, full, why, line, col, h2, h3⟩))⟩
      · exact ⟨h1, .inr (.inr (.inr ⟨i, by simp, h2, h3⟩))⟩
  | [i, o], h =>
    simp only [main] at h ⊢
    cases hi : w.openIn i with
    | none => rw [hi] at h; cases h; exact ⟨rfl, .inr (.inl ⟨i, by simp, rfl⟩)⟩
    | some fi =>
      rw [hi] at h
      simp only at h ⊢
      cases ho : w.openOut o with
      | none => rw [ho] at h; cases h; exact ⟨rfl, .inr (.inl ⟨o, by simp, rfl⟩)⟩
      | some fo =>
        rw [ho] at h
        obtain ⟨h1, ⟨full, why, line, col, h2, h3⟩ | ⟨h2, h3⟩⟩ := key i fi (some fo) (put w.content fo []) h
        · exact ⟨h1, .inr (.inr (.inl ⟨i, by simp, full, why, line, col, h2, h3⟩))⟩
        · exact ⟨h1, .inr (.inr (.inr ⟨i, by simp, h2, h3⟩))⟩
  | _ :: _ :: _ :: _, h => cases h; exact ⟨rfl, .inl rfl⟩

theorem not_endless_nil : ¬ Endless [] := by
  intro h
  have := (C43_runs_forever_iff []).mpr h 1
  exact C43_terminates_partial (text := []) (N := 1) (by intro r hr; simp at hr; subst hr; simp) (by simp) this

/-- The position in the message is the one of the exception of the parser (what C57 says about it thus holds for the
message). -/
theorem C60_position (N : Nat) (w : World) (i fi text full : Bytes) (x : Exc) (h1 : w.openIn i = some fi)
    (h2 : w.content fi = some text) (h3 : w.realpath i = some full) (h4 : parse N text = .exc x) :
    (main rt N w [i]).stderr = full ++ b!":" ++ decNat x.line ++ b!":" ++ decNat x.col ++ b!": error: " ++
      excText x ++ b!" (" ++ decNat x.line ++ b!":" ++ decNat x.col ++ b!")\n" := by
  simp only [main, h1, work, h3, h2, Option.getD_some, compile, h4, deliver, diagnostic, cause, List.append_assoc]
  rfl

/-- **C60.**  What is said about a schema that is refused, in terms of the schema alone (see `Refused`: the error of the
place of the first lexical element that is not expected, and its position). -/
theorem C60_refused (N : Nat) (w : World) (i fi text full : Bytes) (e : Exc) (h1 : w.openIn i = some fi)
    (h2 : w.content fi = some text) (h3 : w.realpath i = some full) (hN : text.length < N) (h : Refused text e) :
    (main rt N w [i]).status = some 1 ∧ (main rt N w [i]).stdout = [] ∧
    (main rt N w [i]).stderr = full ++ b!":" ++ decNat e.line ++ b!":" ++ decNat e.col ++ b!": error: " ++
      excText e ++ b!" (" ++ decNat e.line ++ b!":" ++ decNat e.col ++ b!")\n" := by
  have h4 := ((C67_refused_iff hN).mpr h).1
  refine ⟨?_, ?_, C60_position rt N w i fi text full e h1 h2 h3 h4⟩ <;>
    simp only [main, h1, work, h3, h2, Option.getD_some, compile, h4, deliver, fit_nil]

/-- **C60.**  And about one in which a type is not found: the first of them is named. -/
theorem C60_unknown (N : Nat) (w : World) (i fi text full : Bytes) (ds : List Decl) (q : Bytes)
    (h1 : w.openIn i = some fi) (h2 : w.content fi = some text) (h3 : w.realpath i = some full)
    (hN : text.length + 1 < N) (hw : ∀ d ∈ ds, d.WF) (hn : Numbered ds) (hu : (unknownTypes ds).head? = some q)
    (hr : ReadsAs text ds) :
    (main rt N w [i]).status = some 1 ∧ (main rt N w [i]).stdout = [] ∧
    (main rt N w [i]).stderr = full ++ b!":0:0: error: Unable to find message '" ++ q ++ b!"' (0:0)\n" := by
  have h4 := (C67_unresolved_iff hN).mpr ⟨rfl, rfl, ds, hw, hn, hu, hr⟩
  refine ⟨?_, ?_, ?_⟩
  · simp only [main, h1, work, h3, h2, Option.getD_some, compile, h4, deliver]
  · simp only [main, h1, work, h3, h2, Option.getD_some, compile, h4, deliver, fit_nil]
  · rw [C60_position rt N w i fi text full _ h1 h2 h3 h4]
    have h0 : decNat 0 = b!"0" := by decide +kernel
    simp only [excText, List.append_assoc, h0]
    rfl

/-- **C60.**  The program runs for ever exactly when the schema ends in a comment to the end of the line, or a string,
that is cut off by the end of the file, after lexical elements that are expected. -/
theorem C60_runs_forever_iff (w : World) (i fi text full : Bytes) (h1 : w.openIn i = some fi)
    (h2 : w.content fi = some text) (h3 : w.realpath i = some full) :
    (∀ N, (main rt N w [i]).status = none) ↔ Endless text := by
  rw [← C43_runs_forever_iff]
  refine forall_congr' fun N => ?_
  have e : main rt N w [i] = work rt N w i fi none w.content := by simp only [main, h1]
  rw [e]
  constructor
  · intro h
    rcases work_cases rt N w i fi none w.content with ⟨hr, e⟩ | ⟨f, hr, ⟨t, ht, ⟨hx, e⟩ | ⟨x, hx, e⟩⟩ | ⟨x, hx, e⟩ | ⟨hx, e⟩⟩
    · rw [hr] at h3; cases h3
    · rw [e, (deliver_status _ _ _ _ _ _).1] at h; cases h
    · rw [e, (deliver_status _ _ _ _ _ _).1] at h; cases h
    · rw [e, (deliver_status _ _ _ _ _ _).1] at h; cases h
    · rw [h2] at hx; exact hx
  · intro h
    simp only [work, h3, h2, Option.getD_some, compile, h, deliver]

/-- The program ends, if no schema is cut off like that. -/
theorem C60_ends (N : Nat) (w : World) (argv : List Bytes)
    (h : ∀ f text, w.content f = some text → ¬ Endless text ∧ text.length < N) (hN : 0 < N) :
    (main rt N w argv).status ≠ none := by
  have key : ∀ (i fi : Bytes) (out : Option Bytes) (content : Bytes → Option Bytes),
      (∀ text, content fi = some text → ¬ Endless text ∧ text.length < N) → (work rt N w i fi out content).status ≠ none := by
    intro i fi out content hc
    have hp : parse N ((content fi).getD []) ≠ .fuel := by
      cases hf : content fi with
      | none => exact C43_terminates not_endless_nil (by simpa using hN)
      | some text => exact C43_terminates (hc text hf).1 (hc text hf).2
    rcases work_cases rt N w i fi out content with ⟨hr, e⟩ | ⟨full, hr, ⟨t, ht, ⟨hx, e⟩ | ⟨x, hx, e⟩⟩ | ⟨x, hx, e⟩ | ⟨hx, e⟩⟩
    · rw [e]; simp
    · rw [e, (deliver_status _ _ _ _ _ _).1]; simp
    · rw [e, (deliver_status _ _ _ _ _ _).1]; simp
    · rw [e, (deliver_status _ _ _ _ _ _).1]; simp
    · exact absurd hx hp
  match argv with
  | [] => simp [main]
  | [i] =>
    simp only [main]
    split
    · simp
    · exact key _ _ _ _ fun text ht => h _ _ ht
  | [i, o] =>
    simp only [main]
    split
    · simp
    · split
      · simp
      · refine key _ _ _ _ fun text ht => ?_
        unfold put at ht
        split at ht
        · cases ht; exact ⟨not_endless_nil, hN⟩
        · exact h _ _ ht
  | _ :: _ :: _ :: _ => simp [main]

/-- A computer with two files `a.proto` and `a.hh`. -/
def demoWorld (schema : Bytes) : World :=
  { file := fun p => if p = b!"a.proto" ∨ p = b!"./a.proto" then some b!"1" else if p = b!"a.hh" then some b!"2" else none
    content := fun f => if f = b!"1" then some schema else if f = b!"2" then some b!"old" else none
    canRead := fun _ => true
    canWrite := fun _ => true
    realpath := fun p => if p = b!"a.proto" ∨ p = b!"./a.proto" then some b!"/a.proto" else none
    room := fun _ => none
    outRoom := none }

/-- What is compared in the examples. -/
def Run.seen (r : Run) : Option Nat × Bytes × Bytes × Option Bytes × Option Bytes :=
  (r.status, r.stdout, r.stderr, r.content b!"1", r.content b!"2")

/-- The hypotheses are met: a schema without messages is compiled; an error is reported; so is a missing argument. -/
theorem C60_examples :
    (main (fun _ => b!"//\n") 60 (demoWorld b!"syntax = \"proto3\";\n") [b!"a.proto", b!"a.hh"]).status = some 0 ∧
    (main (fun _ => []) 60 (demoWorld b!"message M {\n int32 = 1; }\n") [b!"a.proto"]).seen =
      (some 1, [], b!"/a.proto:2:8: error: Missing field name (2:8)\n", some b!"message M {\n int32 = 1; }\n", some b!"old") ∧
    (main (fun _ => []) 60 (demoWorld b!"option a = b\nmessage") [b!"a.proto"]).stderr =
      b!"/a.proto:2:1: error: Expected '=' (2:1)\n" ∧
    (main (fun _ => []) 60 (demoWorld b!"message M{int32 a=7;int32 b=7;}") [b!"a.proto"]).stderr =
      b!"/a.proto:1:30: error: Field 'a' has the same index as 'b' (1:30)\n" ∧
    (main (fun _ => []) 60 (demoWorld b!"package p; message M{X a=7;}") [b!"a.proto"]).stderr =
      b!"/a.proto:0:0: error: Unable to find message 'p.X' (0:0)\n" ∧
    (main (fun _ => []) 60 (demoWorld []) []).stderr =
      b!"protogen 3.0.0\nUsage: protogen <proto3 file> [ <output file> ]\n" := by decide +kernel

/-! ### C61 -/

/-- C61, what is left of it: a run changes no file but the output file, and not even that one if the arguments are wrong
or a file cannot be opened.  Missing: that a failed run leaves the output file as it was, which is false
(`C61_output_lost`). -/
theorem C61_other_files_partial (N : Nat) (w : World) (argv : List Bytes) (f : Bytes)
    (h : (main rt N w argv).content f ≠ w.content f) :
    ∃ i fi o, argv = [i, o] ∧ w.openIn i = some fi ∧ w.openOut o = some f := by
  have key : ∀ (i fi : Bytes) (out : Option Bytes) (content : Bytes → Option Bytes),
      (∀ fo, out = some fo → f ≠ fo) → (work rt N w i fi out content).content f = content f := by
    intro i fi out content hout
    have hd : ∀ s t e, (deliver w content out s t e).content f = content f := by
      intro s t e
      cases out with
      | none => rfl
      | some fo => simp [deliver, put, hout fo rfl]
    rcases work_cases rt N w i fi out content with ⟨hr, e⟩ | ⟨full, hr, ⟨t, ht, ⟨hx, e⟩ | ⟨x, hx, e⟩⟩ | ⟨x, hx, e⟩ | ⟨hx, e⟩⟩
    · rw [e]
    all_goals rw [e, hd]
  match argv, h with
  | [], h => exact absurd rfl h
  | [i], h =>
    exfalso
    simp only [main] at h
    split at h
    · exact h rfl
    · exact h (key _ _ _ _ (by simp))
  | [i, o], h =>
    simp only [main] at h
    split at h
    · exact absurd rfl h
    · rename_i fi hi
      split at h
      · exact absurd rfl h
      · rename_i fo ho
        refine ⟨i, fi, o, rfl, hi, ?_⟩
        apply Classical.byContradiction
        intro hne
        have hf : f ≠ fo := fun e => hne (by rw [e]; exact ho)
        refine h ((key _ _ _ _ (by intro g hg; cases hg; exact hf)).trans ?_)
        simp [put, hf]
  | _ :: _ :: _ :: _, h => exact absurd rfl h

/-- C61 is false: whenever the parser rejects the schema, the output file is left empty. -/
theorem C61_output_lost (N : Nat) (w : World) (i o fi fo full text : Bytes) (x : Exc) (h1 : w.openIn i = some fi)
    (h2 : w.openOut o = some fo) (h3 : w.realpath i = some full) (h4 : w.content fi = some text) (hne : fi ≠ fo)
    (h5 : parse N text = .exc x) :
    (main rt N w [i, o]).status = some 1 ∧ (main rt N w [i, o]).content fo = some [] := by
  have e : (put w.content fo [] fi).getD [] = text := by simp [put, hne, h4]
  simp only [main, h1, h2, work, h3, e, compile, h5, deliver, fit_nil]
  exact ⟨trivial, by simp [put]⟩

/-- ... and if the output file is the schema itself, the schema is lost, whatever it was; the program succeeds and writes
what it writes for a schema without messages. -/
theorem C61_schema_lost (N : Nat) (hN : 0 < N) (w : World) (i o f full : Bytes) (h1 : w.openIn i = some f)
    (h2 : w.openOut o = some f) (h3 : w.realpath i = some full) :
    (main rt N w [i, o]).status = some 0 ∧
    ∃ t, parse N [] = .ok t ∧ t.messages = [] ∧ (main rt N w [i, o]).content f = some (fit (w.room f) (textOf rt (output full t).calls)) := by
  have hp : parse N [] = .ok { messages := [], package := [], options := [] } := by
    have h0 : parse 1 [] = .ok { messages := [], package := [], options := [] } := by decide +kernel
    rcases parse_mono (N := 1) hN [] with h | h
    · rw [h0] at h; cases h
    · rw [← h]; exact h0
  have e : (put w.content f [] f).getD [] = [] := by simp [put]
  have hr : ∀ g, (output g { messages := [], package := [], options := [] }).res = .ok () := fun g => rfl
  simp only [main, h1, h2, work, h3, e, compile, hp, hr, deliver]
  exact ⟨trivial, _, rfl, rfl, by simp only [put, if_true]⟩

/-- The witnesses as runs: an error in the schema, a circular reference found when the beginning of the file has already
been written, and a schema overwritten under another name of it. -/
theorem C61_is_false :
    (main (fun _ => []) 60 (demoWorld b!"message M {\n int32 = 1; }\n") [b!"a.proto", b!"a.hh"]).seen =
      (some 1, [], b!"/a.proto:2:8: error: Missing field name (2:8)\n", some b!"message M {\n int32 = 1; }\n", some []) ∧
    (main (fun _ => []) 60 (demoWorld b!"message M { M m = 1; }") [b!"a.proto", b!"a.hh"]).status = some 1 ∧
    ((main (fun _ => []) 60 (demoWorld b!"message M { M m = 1; }") [b!"a.proto", b!"a.hh"]).content b!"2").map
      (fun t => decide (0 < t.length)) = some true ∧
    (main (fun _ => []) 60 (demoWorld b!"message M { int32 a = 1; }") [b!"a.proto", b!"./a.proto"]).status = some 0 ∧
    (main (fun _ => []) 60 (demoWorld b!"message M { int32 a = 1; }") [b!"a.proto", b!"./a.proto"]).content b!"1" =
      (main (fun _ => []) 60 (demoWorld []) [b!"a.proto", b!"./a.proto"]).content b!"1" := by decide +kernel

/-! ### C62 -/

theorem insertField_erase (f : Field) (fs : List Field) :
    (insertField f fs).map Field.erase = insertField f.erase (fs.map Field.erase) := by
  induction fs with
  | nil => rfl
  | cons g rest ih =>
    unfold insertField
    simp only [List.map_cons]
    have : nameLt g.erase.name f.erase.name = nameLt g.name f.name := rfl
    rw [this]
    split
    · rw [List.map_cons, ih]
    · rfl

theorem sortByName_erase (fs : List Field) : (sortByName fs).map Field.erase = sortByName (fs.map Field.erase) := by
  induction fs with
  | nil => rfl
  | cons f fs ih =>
    show (insertField f (sortByName fs)).map Field.erase = insertField f.erase (sortByName (fs.map Field.erase))
    rw [insertField_erase, ih]

/-- C62.  White space and comments in the schema do not change the generated text, nor the kind of error. -/
theorem C62_layout_irrelevant {ls : List Lexeme} {a b : Bytes} (ha : Layout ls a) (hb : Layout ls b) {N : Nat}
    (hNa : a.length < N) (hNb : b.length < N) (fileName : Bytes) :
    (∀ e, compile N fileName a = .generated e → e.res = .ok () → compile N fileName b = .generated e) ∧
    (∀ x, compile N fileName a = .rejected x → ∃ y, compile N fileName b = .rejected y ∧ y.kind = x.kind) := by
  have h := C48_layout_irrelevant ha hb hNa hNb
  unfold compile
  refine ⟨fun e he hr => ?_, fun x hx => ?_⟩
  · cases hpa : parse N a with
    | ok t =>
      rw [hpa] at h he
      simp only [Compiled.generated.injEq] at he
      subst he
      cases hpb : parse N b with
      | ok t' =>
        rw [hpb] at h
        simp only [Out.unplaced, Option.some.injEq, Sum.inl.injEq] at h
        simp only [Compiled.generated.injEq]
        refine output_congr hpa hpb ?_ (congrArg Tree.options h) fileName hr
        have hm : t.messages.map Message.erase = t'.messages.map Message.erase := congrArg Tree.messages h
        have : ∀ t : Tree, (sortTree t).messages.map core =
            (t.messages.map Message.erase).map fun m => { fields := sortByName m.fields, name := m.name, package := m.package, options := [] } := by
          intro t
          simp only [sortTree, List.map_map]
          apply List.map_congr_left
          intro m _
          simp only [Function.comp, core, Message.erase, sortByName_erase]
        rw [this, this, hm]
      | exc _ => rw [hpb] at h; cases h
      | runtime => rw [hpb] at h; cases h
      | fuel => rw [hpb] at h; cases h
    | exc _ => rw [hpa] at he; cases he
    | runtime => rw [hpa] at he; cases he
    | fuel => rw [hpa] at he; cases he
  · cases hpa : parse N a with
    | exc x' =>
      rw [hpa] at h hx
      cases hx
      cases hpb : parse N b with
      | exc y =>
        rw [hpb] at h
        simp only [Out.unplaced, Option.some.injEq, Sum.inr.injEq] at h
        exact ⟨y, rfl, h.symm⟩
      | ok _ => rw [hpb] at h; cases h
      | runtime => rw [hpb] at h; cases h
      | fuel => rw [hpb] at h; cases h
    | ok _ => rw [hpa] at hx; cases hx
    | runtime => rw [hpa] at hx; cases hx
    | fuel => rw [hpa] at hx; cases hx

/-- An instance: the same elements with and without a comment and white space. -/
example :
    (main (fun _ => []) 80 (demoWorld b!"message M{int32 a=1;}") [b!"a.proto"]).status = some 0 ∧
    (main (fun _ => []) 80 (demoWorld b!"message M{int32 a=1;}") [b!"a.proto"]).stdout =
      (main (fun _ => []) 80 (demoWorld b!"// x\n message  M {\n int32 a = 1 ; }\n") [b!"a.proto"]).stdout := by
  decide +kernel

end PG.Gen
