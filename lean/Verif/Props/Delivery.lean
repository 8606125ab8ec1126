import Verif.Model.Source
import Verif.Props.RoundTrip
import Verif.Props.Driver
/-
C70: success means that the output has arrived.
-/
set_option autoImplicit false
namespace PG

/-! ### Objects -/

theorem foldl_put_bad (bs : Bytes) (s : StdOut) (h : s.bad = true) : bs.foldl StdOut.put s = s := by
  induction bs with
  | nil => rfl
  | cons b t ih => rw [List.foldl_cons, StdOut.put, if_pos h, ih]

/-- Sending characters one by one, without a field width. -/
theorem foldl_put (bs : Bytes) (s : StdOut) (h : s.bad = false) (hw : s.width ≤ 1) (hb : bs ≠ []) :
    bs.foldl StdOut.put s = { s.write bs with width := 0 } := by
  induction bs generalizing s with
  | nil => exact absurd rfl hb
  | cons b t ih =>
    have hp : s.pad b = [b] := by
      have : s.width - 1 = 0 := by omega
      unfold StdOut.pad
      rw [this]
      cases s.left <;> rfl
    rw [List.foldl_cons, StdOut.put, h, if_neg (by simp), hp]
    by_cases ht : t = []
    · subst ht; rfl
    · obtain ⟨c, room, bad, width, fill, left⟩ := s
      simp only at h
      subst h
      cases room with
      | none =>
        rw [ih _ rfl (by simp [StdOut.write]) ht]
        simp [StdOut.write]
      | some n =>
        by_cases hn : n = 0
        · subst hn
          rw [foldl_put_bad _ _ (by simp [StdOut.write])]
          simp [StdOut.write]
        · obtain ⟨m, rfl⟩ : ∃ m, n = m + 1 := ⟨n - 1, by omega⟩
          rw [ih _ (by simp [StdOut.write]) (by simp [StdOut.write]) ht]
          simp [StdOut.write]

/-- The text with the padding that `std::setw` asks for, which affects the first character only. -/
def padded (s : StdOut) : Bytes → Bytes
  | [] => []
  | b :: t => s.pad b ++ t

/-- **C70.**  What arrives of a text sent to a stream: the padded text, as far as there is room; `badbit` tells whether it was
cut off. -/
theorem C70_arrives (s : StdOut) (h : s.bad = false) (bs : Bytes) (hb : bs ≠ []) :
    (bs.foldl StdOut.put s).content = s.content ++ Gen.fit s.room (padded s bs) ∧
    ((bs.foldl StdOut.put s).bad = true ↔ ∃ n, s.room = some n ∧ n < (padded s bs).length) := by
  obtain ⟨b, t, rfl⟩ := List.exists_cons_of_ne_nil hb
  rw [List.foldl_cons]
  have hpd : padded s (b :: t) = s.pad b ++ t := rfl
  rw [hpd]
  generalize hp : s.pad b = p
  have hput : s.put b = { s.write p with width := 0 } := by rw [StdOut.put, h, if_neg (by simp), hp]
  rw [hput]
  clear hput hp hpd
  obtain ⟨c, room, bad, width, fill, left⟩ := s
  simp only at h
  subst h
  cases room with
  | none =>
    by_cases ht : t = []
    · subst ht; simp [StdOut.write, Gen.fit]
    · rw [foldl_put t _ rfl (by simp) ht]
      simp [StdOut.write, Gen.fit]
  | some n =>
    by_cases hn : n < p.length
    · rw [foldl_put_bad t _ (by simp [StdOut.write, hn])]
      simp only [StdOut.write, Gen.fit, List.length_append, Option.some.injEq, exists_eq_left', hn, decide_true, true_iff]
      refine ⟨?_, by omega⟩
      rw [List.take_append_of_le_length (by omega)]
    · have h1 : (p ++ t).take n = p ++ t.take (n - p.length) := by
        rw [List.take_append, List.take_of_length_le (by omega)]
      have h2 : p.take n = p := List.take_of_length_le (by omega)
      by_cases ht : t = []
      · subst ht
        simp [StdOut.write, Gen.fit]
      · rw [foldl_put t _ (by simp [StdOut.write]; omega) (by simp) ht]
        simp only [StdOut.write, Gen.fit, h1, h2, List.append_assoc, List.length_append, Option.some.injEq, exists_eq_left',
          decide_eq_true_eq, true_and]
        omega

/-- A message is written as a text in braces. -/
theorem serialize_ne_nil (obf : Bool) (fs : Fields) (params : Option Params) (v : fs.Den) (hl : fs.LabelsOk)
    (hw : fs.Writable (fun b => b ≠ 0) (params.getD {}).ensureAscii v) :
    (serialize (.msg obf fs) params v).ret = true ∧ (serialize (.msg obf fs) params v).out ≠ [] := by
  obtain ⟨h1, h⟩ := serialize_text lexOk_wide (.msg obf fs) params v hl hw
  refine ⟨h1, ?_⟩
  obtain ⟨inner, h, -⟩ := h
  rw [h]
  simp

/-- **C70 is false for objects.**  Whether anything can be written is not noticed: on a stream that has failed `serialize`
returns true, reports no error and writes nothing; on one with too little room it returns true and the text is cut off. -/
theorem C70_unnoticed (obf : Bool) (fs : Fields) (params : Option Params) (v : fs.Den) (hl : fs.LabelsOk)
    (hw : fs.Writable (fun b => b ≠ 0) (params.getD {}).ensureAscii v) (s : StdOut) :
    (serializeStd (.msg obf fs) params v s).1 = true ∧
    (serializeStd (.msg obf fs) params v s).2.1 = (serialize (.msg obf fs) params v).params ∧
    (s.bad = true → (serializeStd (.msg obf fs) params v s).2.2 = s) ∧
    (s.bad = false → ∀ n, s.room = some n → n < (padded s (serialize (.msg obf fs) params v).out).length →
      (serializeStd (.msg obf fs) params v s).2.2.content =
        s.content ++ (padded s (serialize (.msg obf fs) params v).out).take n) := by
  obtain ⟨h1, h2⟩ := serialize_ne_nil obf fs params v hl hw
  refine ⟨h1, rfl, fun hb => foldl_put_bad _ s hb, fun hb n hn _ => ?_⟩
  show ((serialize (.msg obf fs) params v).out.foldl StdOut.put s).content = _
  rw [(C70_arrives s hb _ h2).1, hn]
  rfl

/-- C70 for objects, what holds: on a good stream without a field width, all of the text has arrived exactly if the stream is
still good afterwards -- which the caller has to look at.  Missing: that the return value says so, which is false
(`C70_unnoticed`). -/
theorem C70_objects_partial (obf : Bool) (fs : Fields) (params : Option Params) (v : fs.Den) (hl : fs.LabelsOk)
    (hw : fs.Writable (fun b => b ≠ 0) (params.getD {}).ensureAscii v) (s : StdOut) (hs : s.bad = false) (h0 : s.width ≤ 1) :
    (serializeStd (.msg obf fs) params v s).2.2.bad = false ↔
      (serializeStd (.msg obf fs) params v s).2.2.content = s.content ++ (serialize (.msg obf fs) params v).out := by
  obtain ⟨h1, h2⟩ := serialize_ne_nil obf fs params v hl hw
  have hp : padded s (serialize (.msg obf fs) params v).out = (serialize (.msg obf fs) params v).out := by
    obtain ⟨b, t, ht⟩ := List.exists_cons_of_ne_nil h2
    rw [ht]
    unfold padded StdOut.pad
    rw [show s.width - 1 = 0 by omega]
    cases s.left <;> rfl
  obtain ⟨a1, a2⟩ := C70_arrives s hs _ h2
  rw [hp] at a1 a2
  show ((serialize (.msg obf fs) params v).out.foldl StdOut.put s).bad = false ↔
    ((serialize (.msg obf fs) params v).out.foldl StdOut.put s).content = _
  rw [a1, List.append_cancel_left_eq]
  cases hb : ((serialize (.msg obf fs) params v).out.foldl StdOut.put s).bad with
  | true =>
    obtain ⟨n, hn, hlt⟩ := a2.mp hb
    rw [hn]
    simp only [Bool.true_eq_false, false_iff]
    intro he
    have := congrArg List.length he
    simp only [Gen.fit, List.length_take] at this
    omega
  | false =>
    simp only [true_iff]
    unfold Gen.fit
    cases hr : s.room with
    | none => rfl
    | some n =>
      refine List.take_of_length_le (Nat.le_of_not_lt fun hlt => ?_)
      rw [a2.mpr ⟨n, hr, hlt⟩] at hb
      cases hb

namespace Gen
open PG.Proto

/-! ### The program -/

/-- The same computer, with other amounts of room. -/
def World.withRoom (w : World) (room : Bytes → Option Nat) (outRoom : Option Nat) : World := { w with room, outRoom }

/-- **C70 is false for the program.**  Exit status and messages do not depend on whether the output can be written. -/
theorem C70_program_unnoticed (rt : Runtime) (N : Nat) (w : World) (argv : List Bytes) (room : Bytes → Option Nat)
    (outRoom : Option Nat) :
    (main rt N (w.withRoom room outRoom) argv).status = (main rt N w argv).status ∧
    (main rt N (w.withRoom room outRoom) argv).stderr = (main rt N w argv).stderr := by
  have key : ∀ (i fi : Bytes) (out : Option Bytes) (content : Bytes → Option Bytes),
      (work rt N (w.withRoom room outRoom) i fi out content).status = (work rt N w i fi out content).status ∧
      (work rt N (w.withRoom room outRoom) i fi out content).stderr = (work rt N w i fi out content).stderr := by
    intro i fi out content
    have hr : (w.withRoom room outRoom).realpath i = w.realpath i := rfl
    have hd : ∀ st text err, (deliver (w.withRoom room outRoom) content out st text err).status =
          (deliver w content out st text err).status ∧
        (deliver (w.withRoom room outRoom) content out st text err).stderr = (deliver w content out st text err).stderr := by
      intro st text err
      cases out <;> exact ⟨rfl, rfl⟩
    unfold work
    rw [hr]
    cases w.realpath i with
    | none => exact ⟨rfl, rfl⟩
    | some full =>
      simp only
      cases compile N full ((content fi).getD []) with
      | generated e => cases hr : e.res <;> simp only [hr] <;> exact hd _ _ _
      | rejected x => exact hd _ _ _
      | runtime => exact hd _ _ _
      | running => exact hd _ _ _
  have h1 : ∀ p, (w.withRoom room outRoom).openIn p = w.openIn p := fun _ => rfl
  have h2 : ∀ p, (w.withRoom room outRoom).openOut p = w.openOut p := fun _ => rfl
  match argv with
  | [] => exact ⟨rfl, rfl⟩
  | [i] =>
    simp only [main, h1]
    cases w.openIn i with
    | none => exact ⟨rfl, rfl⟩
    | some fi => exact key i fi none w.content
  | [i, o] =>
    simp only [main, h1, h2]
    cases w.openIn i with
    | none => exact ⟨rfl, rfl⟩
    | some fi =>
      simp only
      cases w.openOut o with
      | none => exact ⟨rfl, rfl⟩
      | some fo => exact key i fi (some fo) (put w.content fo [])
  | _ :: _ :: _ :: _ => exact ⟨rfl, rfl⟩

theorem fit_whole (r : Option Nat) (text : Bytes) : fit r text = text ↔ ∀ n, r = some n → text.length ≤ n := by
  cases r with
  | none => simp [fit]
  | some n =>
    simp only [fit, Option.some.injEq, forall_eq']
    constructor
    · intro h
      have := congrArg List.length h
      rw [List.length_take] at this
      omega
    · exact List.take_of_length_le

/-- C70 for the program, what holds: exit status 0 means that all of the generated text has been written exactly if there was
room for it.  Missing: a status other than 0 if there is too little room, which is false (`C70_program_unnoticed`). -/
theorem C70_program_partial (rt : Runtime) (N : Nat) (w : World) (argv : List Bytes)
    (h : (main rt N w argv).status = some 0) :
    ∃ i full text t, w.realpath i = some full ∧ parse N text = .ok t ∧ (output full t).res = .ok () ∧
      ((argv = [i] ∧ ((main rt N w argv).stdout = textOf rt (output full t).calls ↔
          ∀ n, w.outRoom = some n → (textOf rt (output full t).calls).length ≤ n)) ∨
        ∃ o fo, argv = [i, o] ∧ w.file o = some fo ∧
          ((main rt N w argv).content fo = some (textOf rt (output full t).calls) ↔
            ∀ n, w.room fo = some n → (textOf rt (output full t).calls).length ≤ n)) := by
  obtain ⟨-, i, full, text, t, h1, h2, h3, h4⟩ := C60_output rt N w argv h
  refine ⟨i, full, text, t, h1, h2, h3, ?_⟩
  rcases h4 with ⟨ha, hs, -⟩ | ⟨o, fo, ha, hf, -, hc, -⟩
  · exact .inl ⟨ha, by rw [hs, fit_whole]⟩
  · exact .inr ⟨o, fo, ha, hf, by rw [hc, Option.some.injEq, fit_whole]⟩

/-- The witness: a full disk.  The program succeeds without a word and leaves an empty file. -/
theorem C70_is_false :
    (main (fun _ => b!"//\n") 60 ((demoWorld b!"syntax = \"proto3\";\n").withRoom (fun _ => some 0) none)
      [b!"a.proto", b!"a.hh"]).status = some 0 ∧
    (main (fun _ => b!"//\n") 60 ((demoWorld b!"syntax = \"proto3\";\n").withRoom (fun _ => some 0) none)
      [b!"a.proto", b!"a.hh"]).stderr = [] ∧
    (main (fun _ => b!"//\n") 60 ((demoWorld b!"syntax = \"proto3\";\n").withRoom (fun _ => some 0) none)
      [b!"a.proto", b!"a.hh"]).content b!"2" = some [] := by decide +kernel

end Gen

/-- ... and for an object: four bytes of room; and `std::setw`, which pads the opening brace. -/
theorem C70_object_witness :
    ((serializeStd Demo.address none (Demo.addr 7 b!"x") { content := [], room := some 4 }).1,
      (serializeStd Demo.address none (Demo.addr 7 b!"x") { content := [], room := some 4 }).2.2.content) = (true, b!"{\"nu") ∧
    ((serializeStd Demo.address none (Demo.addr 7 b!"x") { content := [], width := 3, fill := c!"0" }).1,
      (serializeStd Demo.address none (Demo.addr 7 b!"x") { content := [], width := 3, fill := c!"0" }).2.2.content) =
        (true, b!"00{\"number\":7,\"street\":\"x\"}") := by decide +kernel

end PG
