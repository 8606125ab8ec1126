import Verif.Proofs.FewArgs
import Verif.Props.Generator
/-
C40 for everything that is printed, also when the generator throws; C105: a header is complete exactly when the generator succeeds.
-/
set_option autoImplicit false
namespace PG.Gen
open PG.Proto

/-- **C40.** For every tree, whether it is that of an accepted schema or not, and however the generator ends (the header, an exception
after a part of it): what it has printed, apart from the parts of the runtime, is made of templates in which every hole is given an argument
and every argument is inserted verbatim. -/
theorem C40_generated_always (n : Nat) (fileName : Bytes) (t : Tree) {c : Call} (hc : c ∈ (generate n fileName t).calls)
    (hr : ∀ p, c.tpl ≠ .runtime p) (rt : Runtime) :
    ∃ ps, c.tpl.text rt = templateText ps ∧ HolesGiven ps c.args.length ∧ c.text rt = filled c.args ps := by
  rcases generate_used n fileName t c hc with ⟨p, h, _⟩ | hu
  · exact absurd h (hr p)
  · obtain ⟨ps, e, hw, hg⟩ := templateGood_iff (used_good _ hu)
    rw [← text_noRuntime rt (used_not_runtime _ hu)] at e
    exact ⟨ps, e, hg, by rw [Call.text, e, C40_substitution_partial _ hw]⟩

/-- **C40.** And the parts of the runtime are printed without arguments. -/
theorem C40_runtime_always (n : Nat) (fileName : Bytes) (t : Tree) {c : Call} (hc : c ∈ (generate n fileName t).calls) {p : Part}
    (hp : c.tpl = .runtime p) : c = ⟨.runtime p, []⟩ := by
  obtain ⟨tpl, args⟩ := c
  cases hp
  rcases generate_used n fileName t _ hc with ⟨q, _, h⟩ | hu
  · have h : args = [] := List.eq_nil_of_length_eq_zero h
    rw [h]
  · exact absurd rfl (used_not_runtime _ hu p)

/-- The generator throws for the schema with circular references, but has printed the parts of the runtime and the beginning of the
file. -/
example : (∃ e, (generate 9 b!"a.proto" circularTree).res = .exc e) ∧
    (∃ c ∈ (generate 9 b!"a.proto" circularTree).calls, c.tpl = .header ∧ ∀ p, c.tpl ≠ .runtime p) ∧
    ∃ c ∈ (generate 9 b!"a.proto" circularTree).calls, c.tpl = .runtime .json := by
  refine ⟨?_, ?_, ?_⟩
  · have : (match (generate 9 b!"a.proto" circularTree).res with | .exc _ => true | _ => false) = true := by decide +kernel
    revert this
    cases (generate 9 b!"a.proto" circularTree).res with
    | exc e => exact fun _ => ⟨e, rfl⟩
    | _ => intro h; cases h
  · have : (generate 9 b!"a.proto" circularTree).calls.any (fun c => decide (c.tpl = .header)) = true := by decide +kernel
    obtain ⟨c, hc, h⟩ := List.any_eq_true.mp this
    have h := of_decide_eq_true h
    exact ⟨c, hc, h, fun p e => by rw [h] at e; cases e⟩
  · have : (generate 9 b!"a.proto" circularTree).calls.any (fun c => decide (c.tpl = .runtime .json)) = true := by decide +kernel
    obtain ⟨c, hc, h⟩ := List.any_eq_true.mp this
    exact ⟨c, hc, of_decide_eq_true h⟩

/-! ### C105: a complete header is one without error -/

theorem not_end {c : Call} (h : Apt c.tpl c.args.length) : c.tpl ≠ .endGuard := by
  rcases h with ⟨p, h, _⟩ | h
  · rw [h]; exact fun h => (nomatch h)
  · exact h.2

/-- **C105.** For every tree: the generator prints the end of the file (cppgen.cc:589) exactly when it succeeds. -/
theorem C105_complete (n : Nat) (fileName : Bytes) (t : Tree) :
    (∃ c ∈ (generate n fileName t).calls, c.tpl = .endGuard) ↔ (generate n fileName t).res = .ok () := by
  rcases generate_ends_with n fileName t with ⟨h, hw⟩ | ⟨h, cs, e, _⟩
  · exact ⟨fun ⟨c, hc, he⟩ => absurd he (not_end (hw c hc)), fun h' => absurd h' h⟩
  · exact ⟨fun _ => h, fun _ => ⟨⟨.endGuard, [makeGuard fileName]⟩, by rw [e]; simp, rfl⟩⟩

/-- **C105.** And it prints it once, last, and for the guard of the file: the file that is complete ends with it. -/
theorem C105_last (n : Nat) (fileName : Bytes) (t : Tree) (h : (generate n fileName t).res = .ok ()) :
    ∃ cs, (generate n fileName t).calls = cs ++ [⟨.endGuard, [makeGuard fileName]⟩] ∧ (∀ c ∈ cs, c.tpl ≠ .endGuard) ∧
      ∀ rt, textOf rt (generate n fileName t).calls = textOf rt cs ++ b!"#endif // " ++ makeGuard fileName ++ b!"\n" := by
  rcases generate_ends_with n fileName t with ⟨h', _⟩ | ⟨_, cs, e, hw⟩
  · exact absurd h h'
  · refine ⟨cs, e, fun c hc => not_end (hw c hc), fun rt => ?_⟩
    have h1 : Call.text rt ⟨.endGuard, [makeGuard fileName]⟩ = b!"#endif // " ++ makeGuard fileName ++ b!"\n" := by
      have hw : ∀ p ∈ (b!"#endif // ").map Piece.lit ++ [.hole b!"1", .lit 10], p.WF ∧ p ≠ .lit 8 := by decide +kernel
      have ht : (Tpl.endGuard).text rt = templateText ((b!"#endif // ").map Piece.lit ++ [.hole b!"1", .lit 10]) := by
        show Tpl.endGuard.text noRuntime = _
        decide +kernel
      rw [Call.text, ht, C40_substitution_partial _ hw]
      rfl
    rw [e]
    unfold textOf
    rw [List.flatMap_append, List.flatMap_cons, List.flatMap_nil, List.append_nil, h1]
    simp only [List.append_assoc]

/-- One schema for which the header is complete and one for which it is not. -/
example : (generate 9 b!"a.proto" demoTree).res = .ok () ∧ (generate 9 b!"a.proto" circularTree).res ≠ .ok () ∧
    (generate 9 b!"a.proto" circularTree).calls ≠ [] := by
  refine ⟨by decide +kernel, ?_, ?_⟩
  · rw [Ne, ← C105_complete]
    have : (generate 9 b!"a.proto" circularTree).calls.all (fun c => decide (c.tpl ≠ .endGuard)) = true := by decide +kernel
    rintro ⟨c, hc, h⟩
    exact of_decide_eq_true (List.all_eq_true.mp this c hc) h
  · have : (generate 9 b!"a.proto" circularTree).calls.isEmpty = false := by decide +kernel
    intro h
    rw [h] at this
    cases this

end PG.Gen
