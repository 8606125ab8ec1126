import Verif.Props.ProgramLinked
import Verif.Proofs.CxxProgramLink
/-
C104: the compiler as a whole: `main` of main.cc executed with the texts of the parser of schemas and its tokenizer, of the generator and
of the printer (Spec/CxxProgramLink.lean), in place of the meaning of these functions.
-/
set_option autoImplicit false
namespace PG.Cxx.Throw
open PG.Proto PG.Gen PG.Cxx PG.Cxx.Tools PG.Cxx.Maker PG.Cpp

/-- C104: what `main` leaves behind, executed with the texts of what it calls (the parser down to the tokenizer of the schema, the
generator down to the printer), is what the model's `main` does, for all arguments and all file systems.  If the model does not end
within `N` steps, neither does the code. -/
theorem C104_main (s : Bool) : ∃ f less, withLambda 60 (mainText 45 92) = some (f, less) ∧
    ∀ n N (w : Gen.World) (p : Bytes) (argv : List Bytes), 26 ≤ N → N < n → N < 18446744073709551616 →
      (∀ k, (Gen.main shipped N w argv).status = some k →
        Tools.ended w (run (linkedProgram s N w) n f [.int .i32 (argv.length + 1), .arr (.str p :: argv.map .str)] (Driven.begin w)) =
          some (Gen.main shipped N w argv)) ∧
      ((Gen.main shipped N w argv).status = none →
        run (linkedProgram s N w) n f [.int .i32 (argv.length + 1), .arr (.str p :: argv.map .str)] (Driven.begin w) = .fuel) := by
  obtain ⟨f, less, hf, _, hm⟩ := C97_main s
  refine ⟨f, less, hf, fun n N w p argv h26 hn hN => ⟨fun k hk => ?_, fun hk => ?_⟩⟩
  · have h := (hm n shipped N w p argv hn hN).1 k hk
    rw [program_linked h26 hN n f _ _ (ended_defined h)]
    exact h
  · have h := (hm n shipped N w p argv hn hN).2 hk
    rw [program_linked h26 hN n f _ _ (by rw [h]; exact fun x => by cases x)]
    exact h

/-- C104: `main`, `Proto3::parse`, `CppGenerator::generate` and all that they call executed; the header on the standard output;
then the classes in it, `serialize` and `deserialize` executed (C99). -/
theorem C104_to_stdout (σ : Bool) : ∃ f less ser des, withLambda 60 (mainText 45 92) = some (f, less) ∧
    Fun.of [] 60 (slice (jsonLines.map splice) 88 100) = some ser ∧ Fun.of [] 60 (slice (jsonLines.map splice) 74 87) = some des ∧
    ∀ (n N : Nat) (w : Gen.World) (p i fi full text : Bytes) (t : Tree), 26 ≤ N → N < n → N < 18446744073709551616 →
      w.file i = some fi → w.canRead fi = true → w.content fi = some text → w.realpath i = some full → 10 ∉ full →
      parse N text = .ok t → Acceptable N text → Regular t → w.outRoom = none →
      ∃ e, Tools.ended w (run (linkedProgram σ N w) n f [.int .i32 2, .arr [.str p, .str i]] (Driven.begin w)) = some e ∧
        e.status = some 0 ∧ e.stderr = [] ∧ e.content = w.content ∧
        ∀ m ∈ (sortTree t).messages, ∃ ty, HasClass e.stdout m ty ∧ Survives ser des σ ty := by
  obtain ⟨f, less, ser, des, hf, hs, hd, h⟩ := C99_to_stdout σ
  refine ⟨f, less, ser, des, hf, hs, hd, ?_⟩
  intro n N w p i fi full text t h26 hn hN h1 h2 h3 h4 h5 h6 h7 h8 h9
  obtain ⟨e, he, hr⟩ := h n N w p i fi full text t hn hN h1 h2 h3 h4 h5 h6 h7 h8 h9
  refine ⟨e, ?_, hr⟩
  rw [program_linked h26 hN n f _ _ (ended_defined he)]
  exact he

/-- C104: the same with the header in a file. -/
theorem C104_to_file (σ : Bool) : ∃ f less ser des, withLambda 60 (mainText 45 92) = some (f, less) ∧
    Fun.of [] 60 (slice (jsonLines.map splice) 88 100) = some ser ∧ Fun.of [] 60 (slice (jsonLines.map splice) 74 87) = some des ∧
    ∀ (n N : Nat) (w : Gen.World) (p i fi full text o fo : Bytes) (t : Tree), 26 ≤ N → N < n → N < 18446744073709551616 →
      w.file i = some fi → w.canRead fi = true → w.content fi = some text → w.realpath i = some full → 10 ∉ full →
      w.file o = some fo → w.canWrite fo = true → fo ≠ fi →
      parse N text = .ok t → Acceptable N text → Regular t → w.room fo = none →
      ∃ e header, Tools.ended w (run (linkedProgram σ N w) n f [.int .i32 3, .arr [.str p, .str i, .str o]] (Driven.begin w)) = some e ∧
        e.status = some 0 ∧ e.stderr = [] ∧ e.stdout = [] ∧ e.content fo = some header ∧ (∀ g, g ≠ fo → e.content g = w.content g) ∧
        ∀ m ∈ (sortTree t).messages, ∃ ty, HasClass header m ty ∧ Survives ser des σ ty := by
  obtain ⟨f, less, ser, des, hf, hs, hd, h⟩ := C99_to_file σ
  refine ⟨f, less, ser, des, hf, hs, hd, ?_⟩
  intro n N w p i fi full text o fo t h26 hn hN h1 h2 h3 h4 h5 ho hw hne h6 h7 h8 h9
  obtain ⟨e, header, he, hr⟩ := h n N w p i fi full text o fo t hn hN h1 h2 h3 h4 h5 ho hw hne h6 h7 h8 h9
  refine ⟨e, header, ?_, hr⟩
  rw [program_linked h26 hN n f _ _ (ended_defined he)]
  exact he

/-- The exception for a type that is not there (C97), with the texts. -/
example : ∃ f less, withLambda 60 (mainText 45 92) = some (f, less) ∧
    ∃ e, Tools.ended programWorld (run (linkedProgram true 90 programWorld) 91 f
      [.int .i32 2, .arr [.str b!"protogen", .str b!"a.proto"]] (Driven.begin programWorld)) = some e ∧ e.status = some 1 ∧
      e.stderr = b!"/a.proto:0:0: error: Unable to find message 'A' (0:0)\n" := by
  obtain ⟨f, less, hf, h⟩ := C104_main true
  have hs : (Gen.main shipped 90 programWorld [b!"a.proto"]).status = some 1 := by decide +kernel
  exact ⟨f, less, hf, _, (h 91 90 programWorld b!"protogen" [b!"a.proto"] (by decide) (by decide) (by decide)).1 1 hs, hs,
    by decide +kernel⟩

/-- The shop (C56), with the texts. -/
example : ∃ f less, withLambda 60 (mainText 45 92) = some (f, less) ∧
    ∃ e header, Tools.ended shopWorld (run (linkedProgram true 500 shopWorld) 501 f
      [.int .i32 3, .arr [.str b!"protogen", .str b!"shop.proto", .str b!"shop.hh"]] (Driven.begin shopWorld)) = some e ∧
    e.content b!"shop.hh" = some header ∧ ∃ m ∈ (sortTree shopTree).messages, ∃ ty, HasClass header m ty := by
  obtain ⟨f, less, ser, des, h1, _, _, h⟩ := C104_to_file true
  have ha : Acceptable 500 shopText := ⟨shopTree, shop_parse, (output_ok_iff shop_parse b!"shop.proto").mp shop_ok⟩
  obtain ⟨e, header, he, _, _, _, hc, _, hm⟩ := h 501 500 shopWorld b!"protogen" b!"shop.proto" b!"shop.proto" b!"/shop.proto" shopText
    b!"shop.hh" b!"shop.hh" shopTree (by decide) (by decide) (by decide) rfl rfl (by decide +kernel) (by decide +kernel) (by decide) rfl rfl
    (by decide) shop_parse ha shop_regular rfl
  obtain ⟨m, hm', _⟩ : ∃ m ∈ (sortTree shopTree).messages, m.name = b!"Order" := by decide +kernel
  obtain ⟨ty, ht, _⟩ := hm m hm'
  exact ⟨f, less, h1, e, header, he, hc, m, hm', ty, ht⟩

end PG.Cxx.Throw
