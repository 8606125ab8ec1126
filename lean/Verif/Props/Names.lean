import Verif.Props.Generator
import Verif.Spec.Names
/-
C72: whether the names of a schema can be used in C++.
-/
set_option autoImplicit false
namespace PG.Gen
open PG.Proto

theorem Ident.cident {n : Bytes} (h : Ident n) : CIdent n := by
  obtain ⟨b, r, rfl, hb, hr⟩ := h
  refine ⟨b, r, rfl, hb, fun c hc => ?_⟩
  rcases hr c hc with h | h
  · rcases h with h | h | h
    · exact Or.inl h
    · exact Or.inr (Or.inl h)
    · exact Or.inr (Or.inr (Or.inr h))
  · exact Or.inr (Or.inr (Or.inl h))

theorem CIdent.type {n : Bytes} (h : CIdent n) : CIdent (n ++ b!"_type") := by
  obtain ⟨b, r, rfl, hb, hr⟩ := h
  refine ⟨b, r ++ b!"_type", rfl, hb, fun c hc => ?_⟩
  rcases List.mem_append.mp hc with h | h
  · exact hr c h
  · exact (by decide : ∀ c ∈ b!"_type", (65 ≤ c ∧ c ≤ 90) ∨ (97 ≤ c ∧ c ≤ 122) ∨ (48 ≤ c ∧ c ≤ 57) ∨ c = 95) c h

/-- Messages and fields of an accepted schema are called by identifiers that are not words of the schema language. -/
theorem parse_namesOK {N : Nat} {text : Bytes} {t : Tree} (h : parse N text = .ok t) {m : Message} (hm : m ∈ t.messages) :
    NameOK m.name ∧ ∀ f ∈ m.fields, NameOK f.name := by
  obtain ⟨ds, hw, _, he, _⟩ := parse_sound h
  obtain ⟨m', hm', hf, _, hn⟩ := erase_fields he hm
  obtain ⟨x, hx, rfl⟩ := List.mem_map.mp hm'
  have key : ∀ (ds : List Decl) (p : Bytes), (∀ d ∈ ds, d.WF) →
      ∀ x ∈ located p ds, NameOK x.2.1 ∧ ∀ i ∈ x.2.2, i.WF := by
    intro ds
    induction ds with
    | nil => intro p _ x hx; cases hx
    | cons d ds ih =>
      intro p hw x hx
      have hw' := fun e he => hw e (List.mem_cons_of_mem d he)
      have hd := hw d List.mem_cons_self
      cases d with
      | package q => exact ih q hw' x hx
      | message name body =>
        rcases List.mem_cons.mp hx with rfl | hx
        · exact hd
        · exact ih p hw' x hx
      | «syntax» => exact ih p hw' x hx
      | option o => exact ih p hw' x hx
  obtain ⟨h1, h2⟩ := key ds [] hw x hx
  refine ⟨hn ▸ h1, fun f hfm => ?_⟩
  have : f.erase ∈ m.fields.map Field.erase := List.mem_map_of_mem hfm
  rw [← hf] at this
  obtain ⟨g, hg, hge⟩ := List.mem_map.mp this
  obtain ⟨i, hi, hgi⟩ := List.mem_filterMap.mp hg
  have hwf := h2 i hi
  cases i with
  | option o => simp [Item.field?] at hgi
  | field f' =>
    simp only [Item.field?, Option.some.injEq] at hgi
    subst hgi
    have hname : f.name = f'.name := by
      have := congrArg Field.name hge
      exact this.symm
    rw [hname]
    exact hwf.2.1

/-! ### The declarations, message by message -/

/-- The declarations of the messages in the order of the schema. -/
def schemaEvents (msgs : List Message) (ctx : Ctx) (ms : List Message) : List Event := ms.flatMap (messageEvents msgs ctx)

theorem defines_message (msgs : List Message) (ctx : Ctx) (m : Message) :
    (messageEvents msgs ctx m).filterMap Event.defines =
      [(namespaces m.package, m.name ++ b!"_type"), (namespaces m.package, m.name)] := by
  have : (m.fields.map (fun f => Event.member (cppType ctx.useLists f (targetOf msgs f)) f.name)).filterMap Event.defines = [] := by
    rw [List.filterMap_map]
    apply List.filterMap_eq_nil_iff.mpr
    intro f _
    rfl
  unfold messageEvents
  rw [List.filterMap_append, List.filterMap_append, this]
  rfl

theorem leadingMembers_append (f : Field → Bytes) (fs : List Field) (path : List Bytes) (n : Bytes) (rest : List Event) :
    leadingMembers (fs.map (fun x => Event.member (f x) x.name) ++ .entity path n :: rest) = fs.map (·.name) := by
  induction fs with
  | nil => rfl
  | cons x fs ih => simp only [List.map_cons, List.cons_append, leadingMembers, ih]

theorem structures_members (f : Field → Bytes) (fs : List Field) (rest : List Event) :
    structures (fs.map (fun x => Event.member (f x) x.name) ++ rest) = structures rest := by
  induction fs with
  | nil => rfl
  | cons x fs ih => simp only [List.map_cons, List.cons_append, structures, ih]

theorem structures_message (msgs : List Message) (ctx : Ctx) (m : Message) (rest : List Event) :
    structures (messageEvents msgs ctx m ++ rest) =
      ((namespaces m.package, m.name), m.fields.map (·.name)) :: structures rest := by
  unfold messageEvents
  simp only [List.append_assoc, List.cons_append, List.nil_append, structures]
  rw [leadingMembers_append (fun f => cppType ctx.useLists f (targetOf msgs f)),
    structures_members (fun f => cppType ctx.useLists f (targetOf msgs f))]
  rfl

theorem structures_schema (msgs : List Message) (ctx : Ctx) (ms : List Message) :
    structures (schemaEvents msgs ctx ms) = ms.map fun m => ((namespaces m.package, m.name), m.fields.map (·.name)) := by
  induction ms with
  | nil => rfl
  | cons m ms ih =>
    unfold schemaEvents at ih ⊢
    rw [List.flatMap_cons, structures_message, ih, List.map_cons]

theorem defines_schema (msgs : List Message) (ctx : Ctx) (ms : List Message) :
    (schemaEvents msgs ctx ms).filterMap Event.defines =
      ms.flatMap fun m => [(namespaces m.package, m.name ++ b!"_type"), (namespaces m.package, m.name)] := by
  induction ms with
  | nil => rfl
  | cons m ms ih =>
    unfold schemaEvents at ih ⊢
    rw [List.flatMap_cons, List.filterMap_append, ih, defines_message, List.flatMap_cons]

theorem mem_defines {msgs : List Message} {ctx : Ctx} {ms : List Message} {d : Scoped} :
    d ∈ (schemaEvents msgs ctx ms).filterMap Event.defines ↔
      ∃ m ∈ ms, d = (namespaces m.package, m.name ++ b!"_type") ∨ d = (namespaces m.package, m.name) := by
  rw [defines_schema]
  simp only [List.mem_flatMap, List.mem_cons, List.not_mem_nil, or_false]

theorem append_ne_self (n : Bytes) : n ++ b!"_type" ≠ n := fun h => by
  have := congrArg List.length h
  simp at this

/-- No type is defined twice exactly if the messages are apart. -/
theorem defines_nodup (ms : List Message) :
    (ms.flatMap fun m => [(namespaces m.package, m.name ++ b!"_type"), (namespaces m.package, m.name)]).Nodup ↔
      ms.Pairwise NoClash := by
  induction ms with
  | nil => simp
  | cons m ms ih =>
    rw [List.flatMap_cons, List.pairwise_cons, ← ih]
    simp only [List.cons_append, List.nil_append, List.nodup_cons, List.mem_cons, List.mem_flatMap, List.not_mem_nil, or_false,
      Prod.mk.injEq, not_or]
    constructor
    · rintro ⟨⟨_, h1⟩, h2, h3⟩
      refine ⟨fun m' hm' hp => ⟨fun e => h2 ⟨m', hm', .inr ⟨hp, e⟩⟩, fun e => h2 ⟨m', hm', .inl ⟨hp, e⟩⟩,
        fun e => h1 ⟨m', hm', .inr ⟨hp, e⟩⟩⟩, h3⟩
    · rintro ⟨h1, h2⟩
      refine ⟨⟨fun e => append_ne_self _ e.2, ?_⟩, ?_, h2⟩
      · rintro ⟨m', hm', ⟨hp, e⟩ | ⟨hp, e⟩⟩
        · exact (h1 m' hm' hp).1 (List.append_cancel_right e)
        · exact (h1 m' hm' hp).2.2 e
      · rintro ⟨m', hm', ⟨hp, e⟩ | ⟨hp, e⟩⟩
        · exact (h1 m' hm' hp).2.1 e
        · exact (h1 m' hm' hp).1 e

theorem mem_path {msgs : List Message} {ctx : Ctx} {ms : List Message} {q : List Bytes} (hq : q ≠ []) :
    (∃ e ∈ schemaEvents msgs ctx ms, q <+: e.path) ↔ ∃ m ∈ ms, q <+: namespaces m.package := by
  constructor
  · rintro ⟨e, he, hp⟩
    obtain ⟨m, hm, he⟩ := List.mem_flatMap.mp he
    refine ⟨m, hm, ?_⟩
    unfold messageEvents at he
    rcases List.mem_append.mp he with he | he
    · rcases List.mem_append.mp he with he | he
      · simp only [List.mem_cons, List.not_mem_nil, or_false] at he; subst he; exact hp
      · obtain ⟨f, _, rfl⟩ := List.mem_map.mp he
        exact absurd (List.prefix_nil.mp hp) hq
    · simp only [List.mem_cons, List.not_mem_nil, or_false] at he; subst he; exact hp
  · rintro ⟨m, hm, hp⟩
    exact ⟨.struct (namespaces m.package) m.name,
      List.mem_flatMap.mpr ⟨m, hm, by unfold messageEvents; simp⟩, hp⟩

theorem mem_path' {msgs : List Message} {ctx : Ctx} {ms : List Message} {n : Bytes} :
    (∃ e ∈ schemaEvents msgs ctx ms, n ∈ e.path) ↔ ∃ m ∈ ms, n ∈ namespaces m.package := by
  constructor
  · rintro ⟨e, he, hp⟩
    obtain ⟨m, hm, he⟩ := List.mem_flatMap.mp he
    refine ⟨m, hm, ?_⟩
    unfold messageEvents at he
    rcases List.mem_append.mp he with he | he
    · rcases List.mem_append.mp he with he | he
      · simp only [List.mem_cons, List.not_mem_nil, or_false] at he; subst he; exact hp
      · obtain ⟨f, _, rfl⟩ := List.mem_map.mp he
        cases hp
    · simp only [List.mem_cons, List.not_mem_nil, or_false] at he; subst he; exact hp
  · rintro ⟨m, hm, hp⟩
    exact ⟨.struct (namespaces m.package) m.name,
      List.mem_flatMap.mpr ⟨m, hm, by unfold messageEvents; simp⟩, hp⟩

theorem type_no_keyword (n : Bytes) : n ++ b!"_type" ∉ keywords ∧ n ++ b!"_type" ∉ usedNames := by
  have h1 : ∀ k ∈ keywords, b!"_type".isSuffixOf k = false := by decide +kernel
  have h2 : ∀ k ∈ usedNames, b!"_type".isSuffixOf k = false := by decide +kernel
  have h3 : b!"_type".isSuffixOf (n ++ b!"_type") = true := List.isSuffixOf_iff_suffix.mpr (List.suffix_append _ _)
  constructor
  · intro h
    rw [h1 _ h] at h3
    cases h3
  · intro h
    rw [h2 _ h] at h3
    cases h3

/-- The declarations of the messages are legal exactly if the names of the schema fit, given that all names are
identifiers. -/
theorem legal_iff (msgs : List Message) (ctx : Ctx) (ms : List Message)
    (hid : ∀ m ∈ ms, CIdent m.name ∧ (∀ n ∈ namespaces m.package, CIdent n) ∧ ∀ f ∈ m.fields, CIdent f.name) :
    Legal (schemaEvents msgs ctx ms) ↔ NamesFit ms := by
  have hspace : ∀ q : List Bytes, q ≠ [] → (IsSpace (schemaEvents msgs ctx ms) q ↔ ∃ m ∈ ms, q <+: namespaces m.package) :=
    fun q hq => ⟨fun h => (mem_path hq).mp h.2, fun h => ⟨hq, (mem_path hq).mpr h⟩⟩
  constructor
  · rintro ⟨h1, h2, h3, h4⟩
    refine ⟨fun m hm => ?_, ?_, fun m hm n hn => ?_, fun m hm m' hm' => ⟨?_, ?_⟩, fun m hm => ?_⟩
    · have := h1 _ (mem_defines.mpr ⟨m, hm, .inr rfl⟩)
      exact ⟨this.1.2, this.2.1⟩
    · rw [defines_schema] at h2
      exact (defines_nodup ms).mp h2
    · obtain ⟨e, he, hp⟩ := mem_path'.mpr ⟨m, hm, hn⟩
      exact ⟨(h3 e he n hp).1.2, (h3 e he n hp).2⟩
    · intro hp
      exact (h1 _ (mem_defines.mpr ⟨m, hm, .inr rfl⟩)).2.2 ((hspace _ (by simp)).mpr ⟨m', hm', hp⟩)
    · intro hp
      exact (h1 _ (mem_defines.mpr ⟨m, hm, .inl rfl⟩)).2.2 ((hspace _ (by simp)).mpr ⟨m', hm', hp⟩)
    · rw [structures_schema] at h4
      obtain ⟨h5, h6⟩ := h4 _ (List.mem_map.mpr ⟨m, hm, rfl⟩)
      have h7 := fun f hf => h5 f.name (List.mem_map.mpr ⟨f, hf, rfl⟩)
      exact ⟨fun f hf => ⟨(h7 f hf).1.2, (h7 f hf).2⟩, h6⟩
  · rintro ⟨h1, h2, h3, h4, h5⟩
    refine ⟨fun d hd => ?_, ?_, fun e he n hn => ?_, fun s hs => ?_⟩
    · obtain ⟨m, hm, rfl | rfl⟩ := mem_defines.mp hd
      · refine ⟨⟨CIdent.type (hid m hm).1, (type_no_keyword _).1⟩, (type_no_keyword _).2, fun hp => ?_⟩
        obtain ⟨m', hm', hp⟩ := (hspace _ (by simp)).mp hp
        exact (h4 m hm m' hm').2 hp
      · refine ⟨⟨(hid m hm).1, (h1 m hm).1⟩, (h1 m hm).2, fun hp => ?_⟩
        obtain ⟨m', hm', hp⟩ := (hspace _ (by simp)).mp hp
        exact (h4 m hm m' hm').1 hp
    · rw [defines_schema]
      exact (defines_nodup ms).mpr h2
    · obtain ⟨m, hm, hn⟩ := mem_path'.mp ⟨e, he, hn⟩
      exact ⟨⟨(hid m hm).2.1 n hn, (h3 m hm n hn).1⟩, (h3 m hm n hn).2⟩
    · rw [structures_schema] at hs
      obtain ⟨m, hm, rfl⟩ := List.mem_map.mp hs
      refine ⟨fun n hn => ?_, (h5 m hm).2⟩
      obtain ⟨f, hf, rfl⟩ := List.mem_map.mp hn
      exact ⟨⟨(hid m hm).2.2 f hf, ((h5 m hm).1 f hf).1⟩, ((h5 m hm).1 f hf).2⟩

theorem visible_iff (msgs : List Message) (ctx : Ctx) (ms : List Message) :
    Visible (schemaEvents msgs ctx ms) ↔ FieldsVisible ms := by
  unfold Visible FieldsVisible
  rw [structures_schema]
  constructor
  · intro h m hm f hf
    exact h _ (List.mem_map.mpr ⟨m, hm, rfl⟩) f.name (List.mem_map.mpr ⟨f, hf, rfl⟩)
  · intro h s hs n hn
    obtain ⟨m, hm, rfl⟩ := List.mem_map.mp hs
    obtain ⟨f, hf, rfl⟩ := List.mem_map.mp hn
    exact h m hm f hf

/-! ### The generated file -/

/-- The declarations of a file are those of the messages, in some order. -/
theorem file_events {N : Nat} {text : Bytes} {t : Tree} (h : parse N text = .ok t) (fileName : Bytes)
    (hok : (output fileName t).res = .ok ()) :
    ∃ ms : List Message, ms.Perm (sortTree t).messages ∧
      declarations [] (output fileName t).calls = some (schemaEvents (sortTree t).messages (ctxOf t.options) ms) := by
  obtain ⟨order, h1, h2, h3, h4⟩ := C36_definitions_precede_uses h fileName hok
  have hlen : (sortTree t).messages.length = t.messages.length := by simp [sortTree]
  have hperm : order.Perm (List.range (sortTree t).messages.length) := by
    rw [List.perm_ext_iff_of_nodup h1 List.nodup_range]
    intro i
    rw [h2, List.mem_range, hlen]
  refine ⟨order.filterMap fun i => (sortTree t).messages[i]?, ?_, ?_⟩
  · refine (hperm.filterMap _).trans ?_
    have : ∀ l : List Message, ((List.range l.length).filterMap fun i => l[i]?) = l := by
      intro l
      induction l with
      | nil => rfl
      | cons a l ih =>
        rw [List.length_cons, List.range_succ_eq_map, List.filterMap_cons]
        simp only [List.getElem?_cons_zero, List.filterMap_map]
        congr 1
    rw [this]
  · rw [h4]
    congr 1
    unfold schemaEvents
    clear h1 h2 h3 h4 hperm
    generalize hevents : messageEvents (sortTree t).messages (ctxOf t.options) = events
    generalize (sortTree t).messages = l
    induction order with
    | nil => rfl
    | cons i order ih =>
      rw [List.flatMap_cons, ih, List.filterMap_cons]
      cases l[i]? with
      | none => rfl
      | some m => rfl

/-- A list of the messages in another order. -/
theorem namesFit_perm {ms ms' : List Message} (hp : ms.Perm ms') : NamesFit ms ↔ NamesFit ms' := by
  have key : ∀ {a b : List Message}, a.Perm b → NamesFit a → NamesFit b := by
    rintro a b hp ⟨h1, h2, h3, h4, h5⟩
    refine ⟨fun m hm => h1 m (hp.mem_iff.mpr hm), ?_, fun m hm => h3 m (hp.mem_iff.mpr hm),
      fun m hm m' hm' => h4 m (hp.mem_iff.mpr hm) m' (hp.mem_iff.mpr hm'), fun m hm => h5 m (hp.mem_iff.mpr hm)⟩
    rw [← defines_nodup] at h2 ⊢
    exact ((hp.flatMap_right _).nodup_iff).mp h2
  exact ⟨key hp, key hp.symm⟩

/-- Sorting the fields of the messages changes nothing. -/
theorem namesFit_sort (t : Tree) : NamesFit (sortTree t).messages ↔ NamesFit t.messages := by
  have hmem : ∀ m, m ∈ (sortTree t).messages ↔ ∃ a ∈ t.messages, { a with fields := sortByName a.fields } = m := by
    intro m; simp [sortTree]
  have hnd : ∀ fs : List Field, ((sortByName fs).map (·.name)).Nodup ↔ (fs.map (·.name)).Nodup := fun fs =>
    ((sortByName_perm fs).map _).nodup_iff
  constructor
  · rintro ⟨h1, h2, h3, h4, h5⟩
    refine ⟨fun m hm => h1 { m with fields := sortByName m.fields } ((hmem _).mpr ⟨m, hm, rfl⟩), ?_,
      fun m hm => h3 { m with fields := sortByName m.fields } ((hmem _).mpr ⟨m, hm, rfl⟩),
      fun m hm m' hm' => h4 { m with fields := sortByName m.fields } ((hmem _).mpr ⟨m, hm, rfl⟩)
        { m' with fields := sortByName m'.fields } ((hmem _).mpr ⟨m', hm', rfl⟩), fun m hm => ?_⟩
    · have h2 : (t.messages.map fun m => { m with fields := sortByName m.fields }).Pairwise NoClash := h2
      have h8 := List.pairwise_map.mp h2
      exact h8
    · obtain ⟨h6, h7⟩ := h5 { m with fields := sortByName m.fields } ((hmem _).mpr ⟨m, hm, rfl⟩)
      exact ⟨fun f hf => h6 f (mem_sortByName.mpr hf), (hnd _).mp h7⟩
  · rintro ⟨h1, h2, h3, h4, h5⟩
    have h6 : (t.messages.map fun m => { m with fields := sortByName m.fields }).Pairwise NoClash := List.pairwise_map.mpr h2
    refine ⟨?_, h6, ?_, ?_, ?_⟩
    · intro m hm
      obtain ⟨a, ha, rfl⟩ := (hmem m).mp hm
      exact h1 a ha
    · intro m hm
      obtain ⟨a, ha, rfl⟩ := (hmem m).mp hm
      exact h3 a ha
    · intro m hm m' hm'
      obtain ⟨a, ha, rfl⟩ := (hmem m).mp hm
      obtain ⟨b, hb, rfl⟩ := (hmem m').mp hm'
      exact h4 a ha b hb
    · intro m hm
      obtain ⟨a, ha, rfl⟩ := (hmem m).mp hm
      exact ⟨fun f hf => (h5 a ha).1 f (mem_sortByName.mp hf), (hnd _).mpr (h5 a ha).2⟩

/-- **C72** (which names make a proper file). For every schema that code is generated for, the declarations of the file are
legal C++ exactly if the names of the schema fit: the parser and the generator check none of the conditions, except that
everything is called by an identifier. -/
theorem C72_legal_iff {N : Nat} {text : Bytes} {t : Tree} (h : parse N text = .ok t) (fileName : Bytes)
    (hok : (output fileName t).res = .ok ()) :
    ∃ es, declarations [] (output fileName t).calls = some es ∧ (Legal es ↔ NamesFit t.messages) ∧
      (Visible es ↔ FieldsVisible t.messages) := by
  obtain ⟨ms, hp, he⟩ := file_events h fileName hok
  have hmem : ∀ m ∈ ms, ∃ a ∈ t.messages, { a with fields := sortByName a.fields } = m := by
    intro m hm
    have := hp.mem_iff.mp hm
    simpa [sortTree] using this
  refine ⟨_, he, ?_, ?_⟩
  · rw [legal_iff, namesFit_perm hp, namesFit_sort]
    intro m hm
    obtain ⟨a, ha, rfl⟩ := hmem m hm
    refine ⟨Ident.cident (parse_namesOK h ha).1.1, fun n hn => Ident.cident (C39_namespaces_are_identifiers h ha n hn),
      fun f hf => Ident.cident ((parse_namesOK h ha).2 f (mem_sortByName.mp hf)).1⟩
  · rw [visible_iff]
    constructor
    · intro hv m hm f hf
      exact hv { m with fields := sortByName m.fields } (hp.mem_iff.mpr (List.mem_map.mpr ⟨m, hm, rfl⟩)) f
        (mem_sortByName.mpr hf)
    · intro hv m hm f hf
      obtain ⟨a, ha, rfl⟩ := hmem m hm
      exact hv a ha f (mem_sortByName.mp hf)

/-- **C72.** What holds without further ado: every name in the declarations is an identifier, and none of the words of the
schema language that are also keywords of C++ — except that a package may contain them as parts. -/
theorem C72_identifiers_partial {N : Nat} {text : Bytes} {t : Tree} (h : parse N text = .ok t) {m : Message}
    (hm : m ∈ t.messages) :
    CIdent m.name ∧ CIdent (m.name ++ b!"_type") ∧ (∀ n ∈ namespaces m.package, CIdent n) ∧ (∀ f ∈ m.fields, CIdent f.name) ∧
      ∀ k ∈ [b!"enum", b!"double", b!"float", b!"bool", b!"true", b!"false"], m.name ≠ k ∧ ∀ f ∈ m.fields, f.name ≠ k := by
  obtain ⟨h1, h2⟩ := parse_namesOK h hm
  have key : ∀ n : Bytes, NameOK n → ∀ k ∈ [b!"enum", b!"double", b!"float", b!"bool", b!"true", b!"false"], n ≠ k := by
    rintro n ⟨_, hn⟩ k hk rfl
    rcases hn with hn | rfl | rfl
    · exact hn ((by decide +kernel : ∀ k ∈ [b!"enum", b!"double", b!"float", b!"bool", b!"true", b!"false"], k ∈ reserved) n hk)
    · revert hk; decide
    · revert hk; decide
  exact ⟨Ident.cident h1.1, CIdent.type (Ident.cident h1.1), fun n hn => Ident.cident (C39_namespaces_are_identifiers h hm n hn),
    fun f hf => Ident.cident (h2 f hf).1, fun k hk => ⟨key _ h1 k hk, fun f hf => key _ (h2 f hf) k hk⟩⟩

/-- The conditions, computed. -/
def NamesOk (ms : List Message) : Bool :=
  ms.all (fun m => !keywords.contains m.name && !usedNames.contains m.name) &&
  decide ((ms.flatMap fun m => [(namespaces m.package, m.name ++ b!"_type"), (namespaces m.package, m.name)]).Nodup) &&
  ms.all (fun m => (namespaces m.package).all fun n => !keywords.contains n && !usedNames.contains n) &&
  ms.all (fun m => ms.all fun m' => !(namespaces m.package ++ [m.name]).isPrefixOf (namespaces m'.package) &&
    !(namespaces m.package ++ [m.name ++ b!"_type"]).isPrefixOf (namespaces m'.package)) &&
  ms.all (fun m => m.fields.all (fun f => !keywords.contains f.name && !usedTypes.contains f.name) &&
    decide (m.fields.map (·.name)).Nodup)

theorem namesOk_iff (ms : List Message) : NamesOk ms = true ↔ NamesFit ms := by
  have e : NamesFit ms ↔ ((((∀ m ∈ ms, m.name ∉ keywords ∧ m.name ∉ usedNames) ∧ ms.Pairwise NoClash) ∧
      (∀ m ∈ ms, ∀ n ∈ namespaces m.package, n ∉ keywords ∧ n ∉ usedNames)) ∧
      (∀ m ∈ ms, ∀ m' ∈ ms, ¬ namespaces m.package ++ [m.name] <+: namespaces m'.package ∧
        ¬ namespaces m.package ++ [m.name ++ b!"_type"] <+: namespaces m'.package)) ∧
      (∀ m ∈ ms, (∀ f ∈ m.fields, f.name ∉ keywords ∧ f.name ∉ usedTypes) ∧ (m.fields.map (·.name)).Nodup) :=
    ⟨fun ⟨a, b, c, d, e⟩ => ⟨⟨⟨⟨a, b⟩, c⟩, d⟩, e⟩, fun ⟨⟨⟨⟨a, b⟩, c⟩, d⟩, e⟩ => ⟨a, b, c, d, e⟩⟩
  rw [e, ← defines_nodup]
  have np : ∀ a b : List Bytes, (a.isPrefixOf b = false) ↔ ¬ a <+: b := fun a b => by
    rw [← List.isPrefixOf_iff_prefix, Bool.not_eq_true]
  simp only [NamesOk, Bool.and_eq_true, List.all_eq_true, Bool.not_eq_true', decide_eq_true_eq, List.contains_eq_mem,
    decide_eq_false_iff_not, np]

theorem namesOk_of {ms : List Message} (h : NamesFit ms) : NamesOk ms = true := (namesOk_iff ms).mpr h

/-- Code is generated for a schema whose names do not fit. -/
def misnamed (text : Bytes) : Bool :=
  match parse 500 text with
  | .ok t => decide ((output b!"a.proto" t).res = .ok ()) && !NamesOk t.messages
  | _ => false

theorem misnamed_spec {text : Bytes} (h : misnamed text = true) :
    ∃ t es, parse 500 text = .ok t ∧ (output b!"a.proto" t).res = .ok () ∧
      declarations [] (output b!"a.proto" t).calls = some es ∧ ¬ Legal es := by
  unfold misnamed at h
  split at h
  · rename_i t ht
    rw [Bool.and_eq_true, decide_eq_true_eq, Bool.not_eq_true'] at h
    obtain ⟨es, he, hl, _⟩ := C72_legal_iff ht b!"a.proto" h.1
    refine ⟨t, es, ht, h.1, he, fun hle => ?_⟩
    rw [(namesOk_iff _).mpr (hl.mp hle)] at h
    cases h.2
  · cases h

/-- **C72 is false.** The names of an accepted schema need not fit, for each of the reasons there are.  Code is generated
without complaint for schemas with a field, a message or a package called by a keyword (any one that is not a word of the
schema language) … -/
theorem C72_is_false {k : Bytes} (hk : k ∈ keywords) (hr : k ∉ reserved) {text : Bytes}
    (ht : text ∈ [b!"message A{int32 " ++ k ++ b!"=1;}", b!"message " ++ k ++ b!"{}", b!"package " ++ k ++ b!";message A{}"]) :
    ∃ t es, parse 500 text = .ok t ∧ (output b!"a.proto" t).res = .ok () ∧
      declarations [] (output b!"a.proto" t).calls = some es ∧ ¬ Legal es := by
  have h : (keywords.all fun k => reserved.contains k || [b!"message A{int32 " ++ k ++ b!"=1;}", b!"message " ++ k ++ b!"{}",
      b!"package " ++ k ++ b!";message A{}"].all misnamed) = true := by decide +kernel
  have h1 := List.all_eq_true.mp h k hk
  rw [Bool.or_eq_true] at h1
  rcases h1 with h1 | h1
  · exact absurd (List.contains_iff_mem.mp h1) hr
  · exact misnamed_spec (List.all_eq_true.mp h1 text ht)

/-- … with a message called `A_type` beside a message `A`, with a message called like a package, with a keyword inside the
name of a package, with a message or a field called like a type that members are declared with, with a package `std`, with two
fields or two messages of one name. -/
theorem C72_clashes {text : Bytes}
    (ht : text ∈ [b!"message A{}message A_type{}", b!"message a{}package a;message B{}", b!"package a.enum;message A{}",
      b!"package p;message int32_t{}message B{int32 x=1;}", b!"message A{int32 int32_t=1;int32 x=2;}",
      b!"package a.std;message A{bytes x=1;}", b!"message A{int32 x=1;string x=2;}", b!"message A{}message A{}"]) :
    ∃ t es, parse 500 text = .ok t ∧ (output b!"a.proto" t).res = .ok () ∧
      declarations [] (output b!"a.proto" t).calls = some es ∧ ¬ Legal es := by
  have h : ([b!"message A{}message A_type{}", b!"message a{}package a;message B{}", b!"package a.enum;message A{}",
      b!"package p;message int32_t{}message B{int32 x=1;}", b!"message A{int32 int32_t=1;int32 x=2;}",
      b!"package a.std;message A{bytes x=1;}", b!"message A{int32 x=1;string x=2;}", b!"message A{}message A{}"].all misnamed) =
      true := by decide +kernel
  exact misnamed_spec (List.all_eq_true.mp h text ht)

/-- **C72.** And each of the names that every class has is taken for a field, which is then hidden behind it. -/
theorem C72_hidden {n : Bytes} (hn : n ∈ b!"A" :: classNames) :
    ∃ t es, parse 500 (b!"message A{int32 " ++ n ++ b!"=1;}") = .ok t ∧ (output b!"a.proto" t).res = .ok () ∧
      declarations [] (output b!"a.proto" t).calls = some es ∧ Legal es ∧ ¬ Visible es := by
  have h : ((b!"A" :: classNames).all fun n =>
      match parse 500 (b!"message A{int32 " ++ n ++ b!"=1;}") with
      | .ok t => decide ((output b!"a.proto" t).res = .ok ()) && (NamesOk t.messages &&
          decide ((t.messages.map fun m => (m.name, m.fields.map (·.name))) = [(b!"A", [n])]))
      | _ => false) = true := by decide +kernel
  have h1 := List.all_eq_true.mp h n hn
  split at h1
  · rename_i t ht
    rw [Bool.and_eq_true, Bool.and_eq_true, decide_eq_true_eq, decide_eq_true_eq] at h1
    obtain ⟨h1, h2, h3⟩ := h1
    obtain ⟨es, he, hl, hv⟩ := C72_legal_iff ht b!"a.proto" h1
    refine ⟨t, es, ht, h1, he, hl.mpr ((namesOk_iff _).mp h2), fun hvis => ?_⟩
    have hfv := hv.mp hvis
    match hms : t.messages, h3 with
    | [m], h3 =>
      simp only [List.map_cons, List.map_nil, List.cons.injEq, Prod.mk.injEq, and_true] at h3
      match hfs : m.fields, h3.2 with
      | [f], h4 =>
        simp only [List.map_cons, List.map_nil, List.cons.injEq, and_true] at h4
        obtain ⟨h5, h6⟩ := hfv m (by rw [hms]; exact List.mem_singleton_self m) f (by rw [hfs]; exact List.mem_singleton_self f)
        rw [h4] at h5 h6
        rcases List.mem_cons.mp hn with rfl | hn
        · exact h6 h3.1.symm
        · exact h5 hn
      | _ :: _ :: _, h4 => simp at h4
    | _ :: _ :: _, h3 => simp at h3
  · cases h1

/-- The schema of the examples is one whose names fit. -/
example : ∃ es, declarations [] (output b!"demo.proto" demoTree).calls = some es ∧ Legal es ∧ Visible es := by
  obtain ⟨es, he, hl, hv⟩ := C72_legal_iff demo_tree b!"demo.proto" (demo_ok _)
  refine ⟨es, he, hl.mpr ((namesOk_iff _).mp (by decide +kernel)), hv.mpr ?_⟩
  unfold FieldsVisible
  decide +kernel

end PG.Gen
