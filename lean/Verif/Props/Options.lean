import Verif.Proofs.GenErase
import Verif.Props.Grammar
/-
C53: options.
-/
set_option autoImplicit false
namespace PG.Gen
open PG.Proto

/-- The last declaration of an option. -/
def lastOption (name : Bytes) (os : List OptDecl) : Option OptDecl := os.reverse.find? fun o => o.name == name

theorem find_set (m : OptMap) (k n : Bytes) (v : OptEntry) : (m.set k v).find n = if n = k then some v else m.find n := by
  induction m with
  | nil =>
    simp only [OptMap.set, OptMap.find]
    by_cases h : k = n
    · rw [if_pos h, if_pos h.symm]
    · rw [if_neg h, if_neg fun e => h e.symm]
  | cons p m ih =>
    obtain ⟨k', v'⟩ := p
    simp only [OptMap.set]
    split
    · rename_i hk
      simp only [OptMap.find]
      by_cases h : k = n
      · rw [if_pos h, if_pos h.symm]
      · rw [if_neg h, if_neg (fun e => h e.symm), if_neg (by rw [hk]; exact h)]
    · rename_i hk
      simp only [OptMap.find, ih]
      split
      · rename_i hn
        rw [if_neg (by rw [← hn]; exact hk)]
      · rfl

/-- **C53.** The last definition of an option wins; an option that is not defined is absent. -/
theorem C53_last_wins (os : List OptDecl) (name : Bytes) :
    (optionMap os).find name = (lastOption name os).map OptDecl.entry := by
  have key : ∀ (l : List OptDecl) (m : OptMap),
      (l.reverse.foldl (fun m o => m.set o.name o.entry) m).find name =
        ((l.find? fun o => o.name == name).map OptDecl.entry).or (m.find name) := by
    intro l
    induction l with
    | nil => intro m; simp
    | cons o l ih =>
      intro m
      rw [List.reverse_cons, List.foldl_append]
      simp only [List.foldl_cons, List.foldl_nil, find_set, List.find?_cons]
      by_cases h : name = o.name
      · rw [if_pos h, h]; simp
      · rw [if_neg h, ih m]
        have : (o.name == name) = false := by simpa using fun e => h e.symm
        rw [this]
  have := key os.reverse []
  rw [List.reverse_reverse] at this
  unfold optionMap lastOption
  rw [this]
  simp [OptMap.find]

example : (optionMap [⟨b!"a", .int b!"1"⟩, ⟨b!"b", .bool true⟩, ⟨b!"a", .str b!"x"⟩]).find b!"a" =
    some ⟨b!"a", .string, b!"x", 0⟩ := by decide

/-- **C53.** What the generator finds for an option of the file or of a field is the last definition in the text. -/
theorem C53_found {N : Nat} {text : Bytes} {t : Tree} (h : parse N text = .ok t) :
    ∃ ds : List Decl, (LooseLayout (fileLexemes ds) text ∨
        ∃ ds' name body, ds = ds' ++ [.message name body] ∧ LooseLayout (openLexemes ds' name body) text) ∧
      (∀ name, (t.options.find name).map OptEntry.erase = (lastOption name (fileOptions ds)).map OptDecl.entry) ∧
      ∀ (i : Nat) (m : Message) (x : Bytes × Bytes × List Item), t.messages[i]? = some m → (located [] ds)[i]? = some x →
        ∀ (j : Nat) (f : Field) (g : FieldDecl), m.fields[j]? = some f → (x.2.2.filterMap Item.field?)[j]? = some g →
          f.name = g.name ∧ ∀ name, (f.options.find name).map OptEntry.erase =
            (lastOption name (bracketOpts g.options)).map OptDecl.entry := by
  obtain ⟨ds, _, _, he, hl⟩ := parse_sound h
  refine ⟨ds, hl, fun name => ?_, ?_⟩
  · have : OptMap.erase t.options = optionMap (fileOptions ds) := congrArg Tree.options he
    rw [← find_erase, this, C53_last_wins]
  · intro i m x hm hx j f g hf hg
    have hmsgs : t.messages.map Message.erase = (denote ds).messages := congrArg Tree.messages he
    have h1 : (t.messages.map Message.erase)[i]? = some m.erase := by rw [List.getElem?_map, hm]; rfl
    rw [hmsgs] at h1
    simp only [denote, List.getElem?_map, hx, Option.map_some, Option.some.injEq] at h1
    have hfs : (m.fields.map Field.erase) = (x.2.2.filterMap Item.field?).map
        (·.meaning x.1 fun q => position q (messageNames ds)) := by
      have := congrArg Message.fields h1
      exact this.symm
    have h2 : (m.fields.map Field.erase)[j]? = some f.erase := by rw [List.getElem?_map, hf]; rfl
    rw [hfs, List.getElem?_map, hg] at h2
    simp only [Option.map_some, Option.some.injEq] at h2
    refine ⟨?_, fun name => ?_⟩
    · have := congrArg Field.name h2
      exact this.symm
    · have : OptMap.erase f.options = optionMap (bracketOpts g.options) := by
        have := congrArg Field.options h2
        exact this.symm
      rw [← find_erase, this, C53_last_wins]

/-- **C53.** The defaults: names are as declared, fields are persistent, the options of the file are off. -/
theorem C53_defaults :
    (∀ f : Field, f.options.find b!"name" = none → givenName f = f.name) ∧
    (∀ f : Field, f.options.find b!"transient" = none → Persistent f = true) ∧
    (∀ o : OptMap, o.find b!"number_names" = none → (ctxOf o).numberNames = false) ∧
    (∀ o : OptMap, o.find b!"obfuscate_strings" = none → (ctxOf o).obfuscate = false) ∧
    ∀ o : OptMap, o.find b!"cpp_use_lists" = none → (ctxOf o).useLists = false := by
  refine ⟨fun f h => ?_, fun f h => ?_, fun o h => ?_, fun o h => ?_, fun o h => ?_⟩
  · unfold givenName; rw [h]
  · unfold Persistent; rw [h]
  · simp only [ctxOf, h]
  · simp only [ctxOf, h]
  · simp only [ctxOf, h]

/-- The generator reads the options this way: these are the functions of the code. -/
theorem C53_as_read (f : Field) (h : FieldOptionsOk f) :
    isTransient f = .ok (!Persistent f) ∧ (Persistent f = true → jsonName f = .ok (givenName f)) :=
  ⟨isTransient_ok h.1, fun hp => jsonName_ok (h.2 hp).1 (h.2 hp).2⟩

/-- **C53 (partial).** A value of the wrong type makes generation fail: for the three options of the file, `transient`,
and `name` on fields that are not transient.  Missing: `name` on transient fields, options of messages, and options the
generator does not know, all of which are ignored (theorems below). -/
theorem C53_wrong_type_fails_partial {N : Nat} {text : Bytes} {t : Tree} (h : parse N text = .ok t) (fileName : Bytes)
    (hw : (∃ n ∈ [b!"obfuscate_strings", b!"cpp_use_lists", b!"number_names"], ∃ o, t.options.find n = some o ∧
        o.type ≠ .boolean) ∨
      ∃ m ∈ t.messages, ∃ f ∈ m.fields,
        (∃ o, f.options.find b!"transient" = some o ∧ o.type ≠ .boolean) ∨
        (Persistent f = true ∧ ∃ o, f.options.find b!"name" = some o ∧ o.type ≠ .string)) :
    ∃ e, (output fileName t).res = .exc e := by
  cases hr : (output fileName t).res with
  | exc e => exact ⟨e, rfl⟩
  | running => exact absurd hr (output_ends h fileName)
  | ok u =>
    obtain ⟨h1, _, h3⟩ := (output_ok_iff h fileName).mp hr
    rcases hw with ⟨n, hn, o, ho, ht⟩ | ⟨m, hm, f, hf, ⟨o, ho, ht⟩ | ⟨hp, o, ho, ht⟩⟩
    · exact absurd (h1 n hn o ho) ht
    · exact absurd (((h3 m hm).2 f hf).1 o ho) ht
    · exact absurd ((((h3 m hm).2 f hf).2 hp).1 o ho) ht

/-- **C53.** An option of the file with a value that is not a boolean is reported as such. -/
theorem C53_file_option_reported {N : Nat} {text : Bytes} {t : Tree} (h : parse N text = .ok t) (fileName : Bytes)
    (hw : ¬ FileOptionsOk t.options) : ∃ e, (output fileName t).res = .exc e ∧ e.kind = .notBoolean := by
  cases hr : (output fileName t).res with
  | running => exact absurd hr (output_ends h fileName)
  | ok u => exact absurd ((output_ok_iff h fileName).mp hr).1 hw
  | exc e =>
    refine ⟨e, rfl, ?_⟩
    rcases generate_exc hr with h1 | ⟨h2, _⟩ | ⟨h2, _⟩
    · simpa using (fileCtx_throws _).2 e h1
    · exact absurd h2 hw
    · exact absurd h2 hw

example : (output b!"a" (treeOf (parse 100 b!"option number_names = \"yes\";\nmessage M { }"))).res =
    .exc ⟨.notBoolean, b!"number_names", 1, 1⟩ := by decide +kernel
example : (output b!"a" (treeOf (parse 100 b!"message M {\n int32 a = 1 [transient=1]; }"))).res =
    .exc ⟨.notBoolean, b!"transient", 2, 1⟩ := by decide +kernel
example : (output b!"a" (treeOf (parse 100 b!"message M {\n int32 a = 1 [name=5]; }"))).res =
    .exc ⟨.notString, b!"name", 2, 1⟩ := by decide +kernel

/-- **C53 (negation).** The name of a transient field may be anything; so may options of messages and options that do
not exist, such as misspelt ones. -/
theorem C53_is_false :
    (output b!"a" (treeOf (parse 100 b!"message M { int32 a = 1 [transient=true, name=5]; }"))).res = .ok () ∧
    (output b!"a" (treeOf (parse 100 b!"message M { option number_names = 5; int32 a = 1; }"))).res = .ok () ∧
    (output b!"a" (treeOf (parse 100 b!"option number_name = true; message M { int32 a = 1 [nam=5]; }"))).res = .ok () := by
  decide +kernel

/-- **C53 (negation).** In general: a field that is transient may have any value as its name. -/
theorem C53_transient_name_ignored (f : Field) (o : OptEntry) (h : f.options.find b!"transient" = some o)
    (hb : o.type = .boolean) (ht : o.value = b!"true") : FieldOptionsOk f := by
  have hp : Persistent f = false := by unfold Persistent; rw [h]; simp [ht]
  refine ⟨fun o' ho' => ?_, fun hc => by rw [hp] at hc; cases hc⟩
  rw [h] at ho'
  injection ho' with ho'
  rw [← ho']; exact hb

end PG.Gen
