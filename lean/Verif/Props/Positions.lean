import Verif.Proofs.ProtoPlace
/-
C57: the line and column of a schema error.
-/
set_option autoImplicit false
namespace PG.Proto

/-- **C57.**  A schema that is rejected is rejected for one of three reasons.  Either the type of a field is no message
of the file, which is reported at 0:0.  Or there is an offender, which is a lexical element, a character that belongs to
none, or a name that ends with a dot: the error names the line and the column of its first character, what is before it
consists of whole lexical elements, and every file that goes on differently after the offender is rejected with the same
error at the same place.  Or the end of the file is missed: the error names the line of the end and the column before
it, or, when a string is not closed on its line, 1:1. -/
theorem C57_error_position {N : Nat} {text : Bytes} {e : Exc} (hN : text.length < N) (h : parse N text = .exc e) :
    (∃ q, e = ⟨.unresolved q, 0, 0⟩) ∨
    (∃ ls pre x r, Offends text ls pre x r ∧ x.Fits e.kind ∧ e.line = lineAt pre ∧ e.col = colAt pre ∧
      ∀ r' M, x.Ends r' → N ≤ M → (pre ++ (x.text ++ r')).length < M → parse M (pre ++ (x.text ++ r')) = .exc e) ∨
    (∃ ls, LooseLayout ls text ∧ ((e.line = lineAt text ∧ e.col + 1 = colAt text) ∨
      (e.line = 1 ∧ e.col = 1 ∧ ∃ pre s b rest, Broken text ls pre s b rest))) := parse_exc hN h

/-- A schema with an error on its second line, at the name in place of the field number. -/
def sampleBad : Bytes := b!"message M {\n  int32 a = x;\n}\n"

example : parse 60 sampleBad = .exc ⟨.missingIndex, 2, 13⟩ ∧
    (lineAt b!"message M {\n  int32 a = ", colAt b!"message M {\n  int32 a = ") = (2, 13) := by decide +kernel

/-- **C57.**  No schema that starts like a rejected one, up to the offender, is accepted. -/
theorem C57_rejected_start {N : Nat} {text : Bytes} {e : Exc} (hN : text.length < N) (h : parse N text = .exc e)
    (hk : ∀ q, e ≠ ⟨.unresolved q, 0, 0⟩) (hend : ∀ ls, ¬ LooseLayout ls text) :
    ∃ ls pre x r, Offends text ls pre x r ∧ e.line = lineAt pre ∧ e.col = colAt pre ∧
      ∀ r' M t, x.Ends r' → parse M (pre ++ (x.text ++ r')) ≠ .ok t := by
  rcases parse_exc hN h with h1 | ⟨ls, pre, x, r, ho, _, h2, h3, h4⟩ | ⟨ls, h1, _⟩
  · exact h1.elim fun q h1 => absurd h1 (hk q)
  · refine ⟨ls, pre, x, r, ho, h2, h3, fun r' M t hr hp => ?_⟩
    have := h4 r' (max (max N M) ((pre ++ (x.text ++ r')).length + 1)) hr (by omega) (by omega)
    rcases parse_mono (show M ≤ max (max N M) ((pre ++ (x.text ++ r')).length + 1) by omega) (pre ++ (x.text ++ r'))
      with e1 | e1
    · rw [hp] at e1; cases e1
    · rw [this, hp] at e1; cases e1
  · exact absurd h1 (hend ls)

/-- The message of an error is at a place of the text. -/
def PlacedIn (text : Bytes) (e : Exc) : Prop := ∃ pre r, text = pre ++ r ∧ e.line = lineAt pre ∧ e.col = colAt pre

/-- A reference to a message that does not exist. -/
def sampleUnresolved : Bytes := b!"message M { X a = 1; }\n"
/-- The string is not closed, and the error is on the second line. -/
def sampleOpenString : Bytes := b!"message M {\n  int32 a = 1 [name=\"a];\n}\n"

/-- **C57.**  An error is not always placed in the text: a type that is not resolved is reported at 0:0. -/
theorem C57_position_unresolved : parse 60 sampleUnresolved = .exc ⟨.unresolved b!"X", 0, 0⟩ ∧
    ¬ PlacedIn sampleUnresolved ⟨.unresolved b!"X", 0, 0⟩ := by
  refine ⟨by decide +kernel, ?_⟩
  rintro ⟨pre, r, _, h, _⟩
  simp [lineAt] at h
  omega

/-- **C57.**  The error that follows a string not closed on its line is reported at the start of the file, wherever the
string is. -/
theorem C57_position_broken_string : parse 60 sampleOpenString = .exc ⟨.invalidOptionValue, 1, 1⟩ := by decide +kernel

/-- **C57.**  The end of the file is reported one column to the left. -/
theorem C57_position_end : parse 60 b!"package" = .exc ⟨.invalidPackage, 1, 7⟩ ∧ colAt b!"package" = 8 := by
  decide +kernel

/-- **C57.**  A field number that is used twice is reported at the semicolon after it. -/
theorem C57_position_same_number :
    parse 60 b!"message M { int32 a = 1; int32 b = 1; }\n" = .exc ⟨.sameIndex b!"a" b!"b", 1, 37⟩ ∧
      colAt b!"message M { int32 a = 1; int32 b = 1" = 37 := by decide +kernel

end PG.Proto
