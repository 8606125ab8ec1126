import Verif.Props.Driver
import Verif.Props.Printed
/-
C105 for the program: what exit status 0 says about the last line of the header.
-/
set_option autoImplicit false
namespace PG.Gen
open PG.Proto

/-- **C105.** The compiler as a program: when it ends with status 0 and everything fits, what it has written (to standard output or to the
output file) ends with the line that closes the include guard of the schema's full path. -/
theorem C105_program (rt : Runtime) (N : Nat) (w : World) (argv : List Bytes) (h : (main rt N w argv).status = some 0)
    (ho : w.outRoom = none) (hf : ∀ f, w.room f = none) :
    ∃ i full before, w.realpath i = some full ∧
      ((argv = [i] ∧ (main rt N w argv).stdout = before ++ b!"#endif // " ++ makeGuard full ++ b!"\n") ∨
        ∃ o fo, argv = [i, o] ∧ w.file o = some fo ∧
          (main rt N w argv).content fo = some (before ++ b!"#endif // " ++ makeGuard full ++ b!"\n")) := by
  obtain ⟨_, i, full, text, t, hr, _, hok, hc⟩ := C60_output rt N w argv h
  obtain ⟨cs, _, _, ht⟩ := C105_last _ _ _ hok
  refine ⟨i, full, textOf rt cs, hr, ?_⟩
  rw [← ht rt]
  rcases hc with ⟨ha, hs, _⟩ | ⟨o, fo, ha, hw, _, hs, _⟩
  · rw [ho] at hs
    exact .inl ⟨ha, hs⟩
  · rw [hf fo] at hs
    exact .inr ⟨o, fo, ha, hw, hs⟩

/-- **C105.** And when the generator throws, what is left on standard output or in the output file is made of calls none of which is that
line (the exit status is 1 and the diagnostic is printed, but the file that was opened stays). -/
theorem C105_program_cut (rt : Runtime) (N : Nat) (w : World) (path input full : Bytes) (t : Tree) (x : GExc) (out : Option Bytes)
    (content : Bytes → Option Bytes) (hr : w.realpath path = some full) (hp : parse N ((content input).getD []) = .ok t)
    (hx : (output full t).res = .exc x) :
    ∃ cs, (∀ c ∈ cs, c.tpl ≠ .endGuard) ∧
      work rt N w path input out content = deliver w content out (some 1) (textOf rt cs) (diagnostic full x.text x.line x.col) := by
  refine ⟨(output full t).calls, ?_, ?_⟩
  · intro c hc he
    have := (C105_complete _ _ _).mp ⟨c, hc, he⟩
    exact absurd (this.symm.trans hx) (by intro h; cases h)
  · unfold work compile
    rw [hr]
    simp only [hp]
    change (match (output full t).res with | .ok () => _ | .exc x => _ | .running => _) = _
    rw [hx]

/-- The hypotheses are met: the schema without messages is compiled with status 0 and everything fits; one whose message contains itself makes the generator throw. -/
theorem C105_program_examples :
    (main (fun _ => b!"//\n") 60 (demoWorld b!"syntax = \"proto3\";\n") [b!"a.proto", b!"a.hh"]).status = some 0 ∧
    (demoWorld b!"syntax = \"proto3\";\n").outRoom = none ∧ (∀ f, (demoWorld b!"syntax = \"proto3\";\n").room f = none) ∧
    (∃ t x, parse 60 b!"message M{M a=7;}" = .ok t ∧ (output b!"/a.proto" t).res = .exc x) := by
  refine ⟨C60_examples.1, rfl, fun _ => rfl, ?_⟩
  have h : (match parse 60 b!"message M{M a=7;}" with
      | .ok t => (match (output b!"/a.proto" t).res with | .exc _ => true | _ => false)
      | _ => false) = true := by decide +kernel
  split at h
  · next t ht =>
    split at h
    · next x hx => exact ⟨t, x, ht, hx⟩
    · cases h
  · cases h

end PG.Gen
