import Verif.Proofs.NameBound
import Verif.Props.Printed
import Verif.Props.Maker
import Verif.Props.Printer
import Verif.Proofs.DriverRun
import Verif.Proofs.CxxMakerLink
import Verif.Spec.CxxProgramLink
/-
C103: the functions of the generator (cppgen.cc:77-603), parsed and executed as C++ where each call of one of them executes the text of
that one (Spec/CxxMakerLink.lean), print what the model prints.
-/
set_option autoImplicit false
namespace PG.Cxx.Throw
open PG.Proto PG.Gen PG.Cxx.Maker

/-- The messages with their fields sorted by name (main.cc:75-82) are as many. -/
theorem sorted_countable {t : Tree} (h : Countable t.messages) : Countable (sortTree t).messages where
  linked := (sortTree_same t).linked h.linked
  messages := by rw [← (sortTree_same t).1]; exact h.messages
  fields m hm := by
    obtain ⟨i, hi, hmi⟩ := List.mem_iff_getElem.mp hm
    obtain ⟨m', hm', hp, _⟩ := (sortTree_same t).symm.get (i := i) (m := m) (by rw [List.getElem?_eq_getElem hi, hmi])
    rw [hp.length_eq]
    exact h.fields m' (List.mem_of_getElem? hm')

theorem parse_countable {N : Nat} {text : Bytes} {t : Tree} (h : Proto.parse N text = .ok t) (hN : N < 18446744073709551616) :
    Countable t.messages where
  linked := parse_linked h
  messages := Nat.lt_of_le_of_lt (parse_sizes h).1 hN
  fields m hm := Nat.lt_of_le_of_lt ((parse_sizes h).2 m hm) hN

/-- What `CppGenerator::generate` is given for a schema. -/
abbrev givenFor (rt : Runtime) (fileName : Bytes) (t : Tree) : Given :=
  { rt, msgs := (sortTree t).messages, options := (sortTree t).options, fileName, depth := t.messages.length + 1 }

/-- C103: `CppGenerator::generate`, where all functions of the generator that are called, however deep, are texts, for all schemas whose
references are to their messages: what is printed is what the model prints, with the same exceptions.  Calls nest at most as deep as
there are messages, and eight more. -/
theorem C103_generate (s : Bool) (rt : Runtime) (fileName : Bytes) {t : Tree} (h : Countable t.messages) (k : Nat)
    (hk : t.messages.length + 7 < k) (st : Printed) :
    generateCalled s (givenFor rt fileName t) k st = (does rt st (output fileName t)).bind fun r => .ok (.void, r.2) :=
  generate_linked (w := givenFor rt fileName t) (sorted_countable h) rfl k
    (by show (sortTree t).messages.length < t.messages.length + 1; rw [← (sortTree_same t).1]; omega)
    (by show t.messages.length + 1 + 6 < k; omega) st _

/-- C103: the same for every schema that the parser accepts (in as many steps as can be counted). -/
theorem C103_accepted (s : Bool) (rt : Runtime) (fileName : Bytes) {N : Nat} {text : Bytes} {t : Tree} (h : Proto.parse N text = .ok t)
    (hN : N < 18446744073709551616) (k : Nat) (hk : t.messages.length + 7 < k) (st : Printed) :
    generateCalled s (givenFor rt fileName t) k st = (does rt st (output fileName t)).bind fun r => .ok (.void, r.2) :=
  C103_generate s rt fileName (parse_countable h hN) k hk st

/-- C103: for an accepted schema the texts have a defined meaning: they end, and print the model's calls or throw the model's exception. -/
theorem C103_defined (s : Bool) (rt : Runtime) (fileName : Bytes) {N : Nat} {text : Bytes} {t : Tree} (h : Proto.parse N text = .ok t)
    (hN : N < 18446744073709551616) (k : Nat) (hk : t.messages.length + 7 < k) (st : Printed) :
    (∃ st', generateCalled s (givenFor rt fileName t) k st = .ok (.void, st')) ∨
    ∃ e, generateCalled s (givenFor rt fileName t) k st = .thrown e := by
  rw [C103_accepted s rt fileName h hN k hk st]
  have hr := output_ends h fileName
  unfold does
  cases e : (output fileName t).res with
  | ok a => exact .inl ⟨_, rfl⟩
  | exc x => exact .inr ⟨_, rfl⟩
  | running => exact absurd e hr

/-- C103: and they end without exception exactly for the schemas with options of the right types, without circular references and with at
most 64 fields in a message. -/
theorem C103_ends_iff (s : Bool) (rt : Runtime) (fileName : Bytes) {N : Nat} {text : Bytes} {t : Tree} (h : Proto.parse N text = .ok t)
    (hN : N < 18446744073709551616) (k : Nat) (hk : t.messages.length + 7 < k) (st : Printed) :
    (∃ st', generateCalled s (givenFor rt fileName t) k st = .ok (.void, st')) ↔
      FileOptionsOk t.options ∧ ¬ Circular t.messages ∧ ∀ m ∈ t.messages, m.fields.length ≤ 64 ∧ ∀ f ∈ m.fields, FieldOptionsOk f := by
  rw [← output_ok_iff h fileName, C103_accepted s rt fileName h hN k hk st]
  unfold does
  cases e : (output fileName t).res with
  | ok a => exact ⟨fun _ => rfl, fun _ => ⟨_, rfl⟩⟩
  | exc x => exact ⟨fun ⟨_, h⟩ => (nomatch h), fun h => (nomatch h)⟩
  | running => exact ⟨fun ⟨_, h⟩ => (nomatch h), fun h => (nomatch h)⟩

theorem writtenBy_calls (s : Bool) (cs : List Call) (h : ∀ c ∈ cs, c.args.length < 2147483648) (a : Bytes) :
    writtenBy s (cs.map fun c => (c.tpl.text shipped, c.args)) a = .ok (a ++ textOf shipped cs) := by
  induction cs generalizing a with
  | nil => simp [writtenBy, textOf]
  | cons c cs ih =>
    obtain ⟨f, hf, hr⟩ := C95_printed s
    have hc := h c (List.mem_cons_self ..)
    rw [List.map_cons, writtenBy, hf]
    show (run (printLib s) ((c.tpl.text shipped).length + 1) f [.dom .out, .ptr (c.tpl.text shipped), .arr (c.args.map .str)] a).bind _ = _
    rw [hr _ c a (Nat.lt_succ_self _) hc]
    show writtenBy s _ (a ++ c.text shipped) = _
    rw [ih (fun c h' => h c (List.mem_cons_of_mem _ h'))]
    show Ran.ok (a ++ c.text shipped ++ textOf shipped cs) = Ran.ok (a ++ (c.text shipped ++ textOf shipped cs))
    rw [List.append_assoc]

/-- The texts of the generator followed by the text of the printer. -/
theorem written_model (s : Bool) (n : Nat) (fileName : Bytes) (t : Tree) (a : Bytes) :
    writtenBy s ((generate n fileName t).calls.map fun c => (c.tpl.text shipped, c.args)) a =
      .ok (a ++ textOf shipped (generate n fileName t).calls) :=
  writtenBy_calls s _ (fun _ hc => Nat.lt_of_le_of_lt (generate_args _ _ _ _ hc) (by decide)) a

/-- C103: the header: for every accepted schema with which the generator ends without exception, the texts of the generator followed by
the text of the printer write the bytes of the model. -/
theorem C103_text (s : Bool) (fileName : Bytes) {N : Nat} {text : Bytes} {t : Tree} (h : Proto.parse N text = .ok t)
    (hN : N < 18446744073709551616) (hok : (output fileName t).res = .ok ()) (k : Nat) (hk : t.messages.length + 7 < k) :
    ((generateCalled s (givenFor shipped fileName t) k []).bind fun r => writtenBy s r.2 []) =
      .ok (textOf shipped (output fileName t).calls) := by
  rw [C103_accepted s shipped fileName h hN k hk []]
  unfold does
  rw [hok]
  show writtenBy s ([] ++ _) [] = _
  rw [List.nil_append, written_model s]
  rfl

/-- C103: and when the generator throws: the exception of the texts is that of the model, and the text of the printer has written by then
the bytes that the model has written. -/
theorem C103_text_thrown (s : Bool) (fileName : Bytes) {N : Nat} {text : Bytes} {t : Tree} (h : Proto.parse N text = .ok t)
    (hN : N < 18446744073709551616) {e : GExc} (he : (output fileName t).res = .exc e) (k : Nat) (hk : t.messages.length + 7 < k) :
    ∃ st, generateCalled s (givenFor shipped fileName t) k [] = .thrown (.during st e.text e.line e.col) ∧
      writtenBy s st [] = .ok (textOf shipped (output fileName t).calls) := by
  rw [C103_accepted s shipped fileName h hN k hk []]
  unfold does
  rw [he]
  refine ⟨_, rfl, ?_⟩
  rw [List.nil_append]
  exact written_model s _ _ _ []

/-- C103: `obfuscate` (cppgen.cc:214-224) is only given texts that its counter can count, so that its text is what is executed: for every
field of an accepted schema what stands for its name is shorter than 2^64, and the text gives the model's. -/
theorem C103_obfuscate (s : Bool) {N : Nat} {text : Bytes} {t : Tree} (h : Proto.parse N text = .ok t) (hN : N < 18446744073709551616)
    {m : Message} (hm : m ∈ t.messages) {f : Field} (hf : f ∈ m.fields) (ctx : Gen.Ctx) {v : Bytes} (hv : jsonName f = .ok v) :
    (labelOf ctx f v).length < 18446744073709551616 ∧ ∃ c, Fun.of [] 60 (genText 214 224) = some c ∧
      ((run (hexLib s) ((labelOf ctx f v).length + 1) c [.str (labelOf ctx f v)] ([], false)).bind fun r => .ok r.1) =
        .ok (.str (obfuscateText (labelOf ctx f v))) :=
  have hl := (label_short (parse_short h m hm f hf) ctx hv).2 hN
  ⟨hl, _, obfuscateFun_text, obfuscate_runs _ _ (Nat.lt_succ_self _) hl⟩

/-- The first field of the schema with two messages. -/
example (s : Bool) : ∃ m ∈ demoTree.messages, ∃ f ∈ m.fields, ∃ v, jsonName f = .ok v ∧ v ≠ [] ∧
    (labelOf ⟨false, true, false⟩ f v).length < 18446744073709551616 := by
  have hw : ∃ m ∈ demoTree.messages, ∃ f ∈ m.fields, ∃ v, jsonName f = .ok v ∧ v ≠ [] :=
    ⟨_, List.mem_cons_self .., _, List.mem_cons_self .., _, rfl, by decide⟩
  obtain ⟨m, hm, f, hf, v, hv, hne⟩ := hw
  exact ⟨m, hm, f, hf, v, hv, hne, (C103_obfuscate s demo_tree (by decide) hm hf _ hv).1⟩

/-- C105: the same for the texts of the C++ functions: when they throw, they have not printed the end of the file, with whatever
arguments. -/
theorem C105_texts (s : Bool) (fileName : Bytes) {N : Nat} {text : Bytes} {t : Tree} (h : Proto.parse N text = .ok t)
    (hN : N < 18446744073709551616) (k : Nat) (hk : t.messages.length + 7 < k) {st : Printed} {x : Bytes} {l c : Int}
    (he : generateCalled s (givenFor shipped fileName t) k [] = .thrown (.during st x l c)) :
    ∀ p ∈ st, p.1 ≠ b!"#endif // $1$\n" := by
  rw [C103_accepted s shipped fileName h hN k hk []] at he
  unfold does at he
  cases hr : (output fileName t).res with
  | ok a => rw [hr] at he; cases he
  | running => rw [hr] at he; cases he
  | exc e =>
    rw [hr] at he
    have hst : (output fileName t).calls.map (fun c => (c.tpl.text shipped, c.args)) = st := by
      injection he with he
      injection he
    subst hst
    intro p hp
    obtain ⟨d, hd, rfl⟩ := List.mem_map.mp hp
    have hn : d.tpl ≠ .endGuard := by
      intro h'
      have := (C105_complete _ _ _).mp ⟨d, hd, h'⟩
      rw [output] at hr
      rw [hr] at this
      cases this
    rcases generate_used _ _ _ d hd with ⟨q, hq, _⟩ | hu
    · show d.tpl.text shipped ≠ _
      rw [hq]
      intro h'
      have hc := (shipped_chars q 36 (by
        show (36 : Byte) ∈ (Tpl.runtime q).text shipped
        rw [h']; decide)).1
      exact hc rfl
    · show d.tpl.text shipped ≠ _
      rw [text_noRuntime shipped (used_not_runtime _ hu)]
      have key : ∀ x ∈ usedTemplates, x.1 ≠ .endGuard → x.1.text noRuntime ≠ b!"#endif // $1$\n" := by decide +kernel
      exact key _ hu hn

/-- A schema with two messages, one a field of the other, and one with circular references. -/
example (s : Bool) (fileName : Bytes) (k : Nat) (hk : 10 < k) :
    (∃ st, generateCalled s (givenFor shipped fileName demoTree) k [] = .ok (.void, st)) ∧
    ¬ ∃ st, generateCalled s (givenFor shipped fileName circularTree) k [] = .ok (.void, st) :=
  ⟨(C103_ends_iff s shipped fileName demo_tree (by decide) k
      (Nat.lt_of_le_of_lt (by decide +kernel : demoTree.messages.length + 7 ≤ 10) hk) []).mpr
      ((output_ok_iff demo_tree fileName).mp (demo_ok fileName)),
   fun h => ((C103_ends_iff s shipped fileName circular_parse (by decide) k
      (Nat.lt_of_le_of_lt (by decide +kernel : circularTree.messages.length + 7 ≤ 10) hk) []).mp h).2.1
      ⟨0, .more (j := 1) ⟨_, _, rfl, List.mem_cons_self, rfl⟩
        (.more (j := 2) ⟨_, _, rfl, List.mem_cons_of_mem _ List.mem_cons_self, rfl⟩ (.one ⟨_, _, rfl, List.mem_cons_self, rfl⟩))⟩⟩

/-- For the schema with circular references the header of the file has been written when the exception is thrown. -/
example (s : Bool) (fileName : Bytes) (k : Nat) (hk : 10 < k) :
    ∃ (st : Printed) (e : GExc), generateCalled s (givenFor shipped fileName circularTree) k [] = .thrown (.during st e.text e.line e.col) ∧
      writtenBy s st [] = .ok (textOf shipped (output fileName circularTree).calls) ∧ (∀ p ∈ st, p.1 ≠ b!"#endif // $1$\n") ∧ st ≠ [] := by
  obtain ⟨e, he, -⟩ : ∃ e, (output fileName circularTree).res = .exc e ∧ e.kind = .circular :=
    (C37_circular_iff circular_parse _).2.mpr ⟨fun n _ o ho => (by cases ho), 0,
      .more (j := 1) ⟨_, _, rfl, List.mem_cons_self, rfl⟩
        (.more (j := 2) ⟨_, _, rfl, List.mem_cons_of_mem _ List.mem_cons_self, rfl⟩ (.one ⟨_, _, rfl, List.mem_cons_self, rfl⟩))⟩
  obtain ⟨st, h1, h2⟩ := C103_text_thrown s fileName circular_parse (by decide) he k
    (Nat.lt_of_le_of_lt (by decide +kernel : circularTree.messages.length + 7 ≤ 10) hk)
  refine ⟨st, e, h1, h2, C105_texts s fileName circular_parse (by decide) k
    (Nat.lt_of_le_of_lt (by decide +kernel : circularTree.messages.length + 7 ≤ 10) hk) h1, ?_⟩
  rintro rfl
  rw [C103_accepted s shipped fileName circular_parse (by decide) k
    (Nat.lt_of_le_of_lt (by decide +kernel : circularTree.messages.length + 7 ≤ 10) hk) []] at h1
  unfold does at h1
  rw [he] at h1
  injection h1 with h1
  injection h1 with h1
  cases h1

end PG.Cxx.Throw
