import Verif.Proofs.GenReport
import Verif.Proofs.ProtoLine
import Verif.Props.Driver
/-
C76: the reason the generator gives for refusing a schema is true, and is there when something is wrong; the line of an option
is where its declaration begins.
-/
set_option autoImplicit false
namespace PG.Gen
open PG.Proto

/-- **C76.**  When the generator refuses a schema, what it says is wrong with the schema is wrong with it. -/
theorem C76_reported {N : Nat} {text : Bytes} {t : Tree} (h : parse N text = .ok t) (fileName : Bytes) {e : GExc}
    (he : (output fileName t).res = .exc e) : Fault t e.text e.line e.col := by
  refine fault_sort (generate_reported (fun m hm f hf => ?_) e he)
  obtain ⟨m', hm', rfl⟩ := sorted_message hm
  exact (sortTree_same t).fieldLinked (parse_fieldLinked h hm' (mem_sortByName.mp hf))

/-- **C76.**  It refuses a schema exactly when something is wrong with it. -/
theorem C76_refused_iff {N : Nat} {text : Bytes} {t : Tree} (h : parse N text = .ok t) (fileName : Bytes) :
    (∃ e, (output fileName t).res = .exc e) ↔ ∃ x l c, Fault t x l c := by
  constructor
  · rintro ⟨e, he⟩; exact ⟨_, _, _, C76_reported h fileName he⟩
  rintro ⟨x, l, c, hf⟩
  cases hr : (output fileName t).res with
  | exc e => exact ⟨e, rfl⟩
  | running => exact absurd hr (output_ends h fileName)
  | ok u =>
    exfalso
    obtain ⟨h1, h2, h3⟩ := (output_ok_iff h fileName).mp hr
    cases hf with
    | fileOption hn ho ht => exact ht (h1 _ (by rcases hn with rfl | rfl | rfl <;> decide) _ ho)
    | transient hm hf ho ht => exact ht (((h3 _ hm).2 _ hf).1 _ ho)
    | name hm hf hp ho ht => exact ht ((((h3 _ hm).2 _ hf).2 hp).1 _ ho)
    | quotes hm hf hp hq =>
      have := (((h3 _ hm).2 _ hf).2 hp).2
      rcases hq with hq | hq
      · exact (this _ hq).1 rfl
      · exact (this _ hq).2 rfl
    | circular hm hc => exact h2 ⟨_, hc⟩
    | tooMany hm hx => have := (h3 _ hm).1; omega

/-- **C76.**  The line kept with an option is the one where its declaration begins: the declaration has that name, that value
and its type, and `line` is the line of its first character. -/
theorem C76_lines {N : Nat} {text : Bytes} {t : Tree} (h : parse N text = .ok t) :
    (∀ n o, t.options.find n = some o → o.name = n ∧ SetAt text o) ∧
    ∀ m ∈ t.messages, (∀ n o, m.options.find n = some o → o.name = n ∧ SetAt text o) ∧
      ∀ f ∈ m.fields, ∀ n o, f.options.find n = some o → o.name = n ∧ SetAt text o :=
  parse_lined h

/-- **C76.**  The program prints the reason and ends with status 1. -/
theorem C76_printed (rt : Runtime) (N : Nat) (w : World) (i fi text full : Bytes) {t : Tree} (h1 : w.openIn i = some fi)
    (h2 : w.content fi = some text) (h3 : w.realpath i = some full) (h : parse N text = .ok t)
    (hf : ∃ x l c, Fault t x l c) :
    ∃ x l c, Fault t x l c ∧ (main rt N w [i]).status = some 1 ∧
      (main rt N w [i]).stderr = full ++ b!":" ++ decNat l ++ b!":" ++ decNat c ++ b!": error: " ++ x ++ b!" (" ++ decNat l ++
        b!":" ++ decNat c ++ b!")\n" := by
  obtain ⟨e, he⟩ := (C76_refused_iff h full).mpr hf
  refine ⟨_, _, _, C76_reported h full he, ?_, ?_⟩ <;>
    simp only [main, h1, work, h3, h2, Option.getD_some, compile, h, he, deliver]
  simp [diagnostic, cause]

/-- **C76, in part.**  A report about the type of a value points at the line where the option is set; the others say 1:1 or
0:0.  The full claim (every report points at what is wrong) fails: see `C76_position_is_false`. -/
theorem C76_position_partial {N : Nat} {text : Bytes} {t : Tree} (h : parse N text = .ok t) {x : Bytes} {l c : Nat}
    (hf : Fault t x l c) :
    (∃ o : OptEntry, SetAt text o ∧ o.line = l ∧ c = 1 ∧
      ((o.type ≠ .boolean ∧ x = b!"The value for '" ++ o.name ++ b!"' must be a boolean") ∨
       (o.type ≠ .string ∧ x = b!"The value for '" ++ o.name ++ b!"' must be a string"))) ∨
    (l = 1 ∧ c = 1) ∨ (l = 0 ∧ c = 0) := by
  obtain ⟨h1, h2⟩ := C76_lines h
  cases hf with
  | fileOption hn ho ht =>
    obtain ⟨k1, k2⟩ := h1 _ _ ho
    exact .inl ⟨_, k2, rfl, rfl, .inl ⟨ht, by rw [k1]⟩⟩
  | transient hm hf ho ht =>
    obtain ⟨k1, k2⟩ := (h2 _ hm).2 _ hf _ _ ho
    exact .inl ⟨_, k2, rfl, rfl, .inl ⟨ht, by rw [k1]; rfl⟩⟩
  | name hm hf hp ho ht =>
    obtain ⟨k1, k2⟩ := (h2 _ hm).2 _ hf _ _ ho
    exact .inl ⟨_, k2, rfl, rfl, .inr ⟨ht, by rw [k1]; rfl⟩⟩
  | quotes => exact .inr (.inl ⟨rfl, rfl⟩)
  | circular => exact .inr (.inr ⟨rfl, rfl⟩)
  | tooMany => exact .inr (.inr ⟨rfl, rfl⟩)

/-- A name with a quote, on the fourth line. -/
def quotedText : Bytes := b!"\n\nmessage M{\nstring a=1[name=\"'\"];\n}"
/-- A message that contains itself. -/
def loopText : Bytes := b!"message M{\nM a=1;\n}"
/-- An option of the wrong type on the third line. -/
def wrongText : Bytes := b!"message M{\nbool a=1[name=\"b\",\n transient\n=1];\n}"

/-- **C76.**  The quote is reported on the first line, which is empty; the circular reference on line 0, which no text has. -/
theorem C76_position_is_false :
    (∃ t e, parse 60 quotedText = .ok t ∧ (output b!"a" t).res = .exc e ∧ e.line = 1 ∧ e.col = 1 ∧
      quotedText.take 2 = b!"\n\n" ∧ e.text = b!"option 'name' in the field 'a' must not contain quotes") ∧
    (∃ t e, parse 60 loopText = .ok t ∧ (output b!"a" t).res = .exc e ∧ e.line = 0 ∧
      e.text = b!"circular reference with 'M'") ∧ ∀ pre : Bytes, lineAt pre ≠ 0 :=
  ⟨⟨treeOf (parse 60 quotedText), ⟨.quotes, b!"a", 1, 1⟩, by decide +kernel, by decide +kernel, rfl, rfl, by decide, by decide⟩,
   ⟨treeOf (parse 60 loopText), ⟨.circular, b!"M", 0, 0⟩, by decide +kernel, by decide +kernel, rfl, by decide⟩,
   fun pre => by unfold lineAt; omega⟩

/-- **C76, an example.**  The option is set from the third line on (its value is on the fourth). -/
theorem C76_example : ∃ t, parse 60 wrongText = .ok t ∧
    Fault t b!"The value for 'transient' must be a boolean" 3 1 ∧
    (output b!"a" t).res = .exc ⟨.notBoolean, b!"transient", 3, 1⟩ := by
  have h : parse 60 wrongText = .ok (treeOf (parse 60 wrongText)) := by decide +kernel
  have hr : (output b!"a" (treeOf (parse 60 wrongText))).res = .exc ⟨.notBoolean, b!"transient", 3, 1⟩ := by decide +kernel
  exact ⟨_, h, C76_reported h _ hr, hr⟩

end PG.Gen
