import Verif.Proofs.GenMeaning
import Verif.Proofs.GenNames
import Verif.Props.RoundTrip
/-
C55 and C56: from the schema to the behaviour of the generated code.
-/
set_option autoImplicit false
namespace PG.Gen
open PG.Proto

/-! ### Conditions on the schema -/

/-- No two messages have the same qualified name, and no two fields of a message the same name. -/
def NamesDistinct (t : Tree) : Prop :=
  (t.messages.map fun m => qualify m.package m.name).Nodup ∧ ∀ m ∈ t.messages, (m.fields.map (·.name)).Nodup

/-- The JSON names are such that a C++ string literal, or its obfuscated form, stands for the name. -/
def LiteralNames (t : Tree) : Prop :=
  ∀ m ∈ t.messages, ∀ f ∈ m.fields, Persistent f = true →
    let name := jsonNameIn (ctxOf t.options) f
    if (ctxOf t.options).obfuscate then ∀ c ∈ name, c ≠ obfMask name.length else PlainName name

/-- If there is a bytes field, then the runtime has support for it: there is a repeated bytes field, or a repeated field and
a numeric field. -/
def BytesSupported (t : Tree) : Prop :=
  (HasField t fun f => f.type.id = .scalar .bytes) →
    (HasField t fun f => f.type.repeated = true ∧ f.type.id = .scalar .bytes) ∨
    ((HasField t fun f => f.type.repeated = true) ∧
      HasField t fun f => ∃ s, f.type.id = .scalar s ∧ s ≠ .string ∧ s ≠ .bytes)

/-- Some bytes field is repeated. -/
def hasBase64 (t : Tree) : Bool := t.messages.any fun m => m.fields.any fun f =>
  f.type.repeated && decide (f.type.id = .scalar .bytes)

/-! ### C55 -/

theorem usable_of {t : Tree} (hn : LiteralNames t) {m : Message} (hm : m ∈ t.messages) {f : Field} (hf : f ∈ m.fields)
    (hp : Persistent f = true) : Usable (ctxOf t.options) (jsonNameIn (ctxOf t.options) f) := by
  have h := hn m hm f hf hp
  simp only at h
  unfold Usable
  cases ho : (ctxOf t.options).obfuscate
  · rw [ho] at h
    simp only [Bool.false_eq_true, if_false, labelText, keyText, ho] at h ⊢
    exact ⟨by rw [labelValue_quoted, cString_plain h], cString_plain h⟩
  · rw [ho] at h
    simp only [if_true] at h
    refine ⟨(C35_label_iff ho _).mpr h, ?_⟩
    simp only [keyText, ho, if_true]
    exact (C35_key_iff _).mpr h

theorem included_iff {N : Nat} {text : Bytes} {t : Tree} (h : parse N text = .ok t) {fileName : Bytes}
    (hok : (output fileName t).res = .ok ()) (p : Part) :
    ((output fileName t).calls.any fun c => c.tpl = .runtime p) = true ↔ Includes fileName t p := by
  have hl := (sortTree_same t).linked (parse_linked h)
  obtain ⟨h1, order, h2, h3⟩ := generate_ok hok
  rw [includes_iff h fileName hok, output, generate_eq h1 h2 hl h3, List.any_eq_true]
  constructor
  · rintro ⟨c, hc, hp⟩
    have hp : c.tpl = .runtime p := by simpa using hp
    simp only [fileCalls, List.mem_append, List.mem_cons, List.not_mem_nil, or_false, List.mem_flatMap] at hc
    rcases hc with hc | (rfl | ⟨i, _, hc⟩) | rfl
    · unfold inclusionCalls at hc
      obtain ⟨q, hq, rfl⟩ := List.mem_map.mp hc
      cases hp
      exact List.mem_map.mpr ⟨_, hq, rfl⟩
    · cases hp
    · cases hm : (sortTree t).messages[i]? with
      | none => rw [hm] at hc; cases hc
      | some m => rw [hm] at hc; exact absurd hp (message_tpl hc p)
    · cases hp
  · intro hc
    exact ⟨_, List.mem_append_left _ hc, by simp⟩

theorem hasBase64_iff (t : Tree) :
    hasBase64 t = true ↔ HasField t fun f => f.type.repeated = true ∧ f.type.id = .scalar .bytes := by
  unfold hasBase64 HasField
  simp only [List.any_eq_true, Bool.and_eq_true, decide_eq_true_eq]

/-- The parts of the runtime, in terms of the schema. -/
theorem included_base64 {N : Nat} {text : Bytes} {t : Tree} (h : parse N text = .ok t) {fileName : Bytes}
    (hok : (output fileName t).res = .ok ()) : (includedIn (output fileName t).calls).base64 = hasBase64 t := by
  rw [Bool.eq_iff_iff, hasBase64_iff, ← (C41_inclusions_partial h fileName hok).2.2.2.2.2, ← included_iff h hok]
  exact Iff.rfl

theorem supports {N : Nat} {text : Bytes} {t : Tree} (h : parse N text = .ok t) {fileName : Bytes}
    (hok : (output fileName t).res = .ok ()) (hb : BytesSupported t) {m : Message} (hm : m ∈ t.messages) {f : Field}
    (hf : f ∈ m.fields) : Supports (includedIn (output fileName t).calls) f := by
  obtain ⟨_, _, ha, hs, hn, h6⟩ := C41_inclusions_partial h fileName hok
  rw [← included_iff h hok] at ha hs hn h6
  have has : ∀ {q : Field → Prop}, q f → HasField t q := fun hq => ⟨m, hm, f, hf, hq⟩
  refine ⟨fun hr => ha.mpr (has hr), fun s hid => ⟨fun hnum => hn.mpr (has ⟨s, hid, ?_⟩), fun e => hs.mpr (has (e ▸ hid)), fun e => ?_⟩⟩
  · constructor <;> (rintro rfl; cases hnum)
  · subst e
    rcases hb (has hid) with h1 | ⟨h1, h2⟩
    · exact Or.inl (h6.mpr h1)
    · exact Or.inr ⟨ha.mpr h1, hn.mpr h2⟩

theorem range_select_from {α : Type} : ∀ (l pre : List α),
    ((List.range' pre.length l.length).filterMap fun i => (pre ++ l)[i]?) = l
  | [], _ => rfl
  | a :: l, pre => by
    have := range_select_from l (pre ++ [a])
    rw [List.length_append, List.append_assoc] at this
    rw [List.length_cons, List.range'_succ, List.filterMap_cons]
    have e : (pre ++ a :: l)[pre.length]? = some a := by simp
    rw [e]
    exact congrArg (a :: ·) this

theorem range_select {α : Type} (l : List α) : ((List.range l.length).filterMap fun i => l[i]?) = l := by
  have := range_select_from l []
  rwa [List.length_nil, List.nil_append, ← List.range_eq_range'] at this

/-- **C55.** The code generated for an accepted schema defines a class for every message of the schema, once each, before
it is used; and the type of the class, as the generated functions treat it, is that of the message: its members are the
fields with their types, the label of every persistent field is the JSON name of the field in the writer and in the table
of names, and the transient fields are in neither. -/
theorem C55_classes {N : Nat} {text : Bytes} {t : Tree} (h : parse N text = .ok t) {fileName : Bytes}
    (hok : (output fileName t).res = .ok ()) (hd : NamesDistinct t) (hn : LiteralNames t) (hb : BytesSupported t) :
    ∃ cs, classesOf (output fileName t).calls = some cs ∧ (cs.map (·.1)).Perm (t.messages.map className) ∧
      ∀ m ∈ (sortTree t).messages, ∃ ty, cs.find (className m) = some ty ∧
        MessageTy (sortTree t).messages (ctxOf t.options) (hasBase64 t) m ty := by
  have hs := sortTree_same t
  have hl := hs.linked (parse_linked h)
  obtain ⟨h1, order, h2, h3⟩ := generate_ok hok
  obtain ⟨ho, hno, hall⟩ := sortAll_ok h2
  have hlt := sortAll_lt hl h2
  have hnames : (sortTree t).messages.map className = t.messages.map className := by
    simp only [sortTree, List.map_map]
    rfl
  rw [← included_base64 h hok]
  have hcalls : (output fileName t).calls =
      inclusionCalls (needs (sortTree t).messages) ++ fileCalls fileName (sortTree t).messages (ctxOf t.options) order := by
    rw [output, generate_eq h1 h2 hl h3]
    rfl
  obtain ⟨r, h4, h5, h6⟩ := run_messages (inc := includedIn (output fileName t).calls) (ctx := ctxOf t.options) ho hno hlt
    (by rw [hnames]; exact classNames_nodup h hd.1) h3
    (fun m hm f hf => by
      obtain ⟨m', hm', rfl⟩ := sorted_message hm
      exact supports h hok hb hm' (mem_sortByName.mp hf))
    (fun m hm => by
      obtain ⟨m', hm', rfl⟩ := sorted_message hm
      exact (((sortByName_perm m'.fields).map (·.name)).nodup_iff).mpr (hd.2 m' hm'))
    (fun m hm f hf hp => by
      obtain ⟨m', hm', rfl⟩ := sorted_message hm
      exact usable_of hn hm' (mem_sortByName.mp hf) hp)
    order [] {} rfl ⟨rfl, by simp, by simp⟩
  have hrun : classesOf (output fileName t).calls = some r.classes := by
    unfold classesOf
    have hfile : Reading.run (includedIn (output fileName t).calls) {} (output fileName t).calls = some r := by
      generalize includedIn (output fileName t).calls = inc at *
      rw [hcalls, run_append, run_inclusions, Option.bind_some, fileCalls, run_append, run_append, run_one (by rfl),
        Option.bind_some, h4, Option.bind_some, run_one (by rfl)]
    rw [hfile, Option.bind_some, if_pos h5.1]
  refine ⟨r.classes, hrun, ?_, ?_⟩
  · rw [h6, ← hnames]
    have : (order.filterMap fun i => ((sortTree t).messages[i]?).map className).Perm
        ((List.range (sortTree t).messages.length).filterMap fun i => ((sortTree t).messages[i]?).map className) := by
      refine List.Perm.filterMap _ ?_
      rw [List.perm_ext_iff_of_nodup hno List.nodup_range]
      intro i
      rw [List.mem_range]
      exact ⟨hlt i, hall i⟩
    refine this.trans (.of_eq ?_)
    simp only [← List.getElem?_map]
    have := range_select ((sortTree t).messages.map className)
    rwa [List.length_map] at this
  · intro m hm
    obtain ⟨i, hi, hmi⟩ := List.mem_iff_getElem.mp hm
    exact h5.2.2 i (hall i hi) m (by rw [List.getElem?_eq_getElem hi, hmi])

mutual
/-- The type of a message is determined by the schema. -/
theorem FieldTy.unique {msgs : List Message} {ctx : Ctx} {b64 : Bool} : ∀ {t : Ty} {f : Field} {t' : Ty},
    FieldTy msgs ctx b64 f t → FieldTy msgs ctx b64 f t' → t = t'
  | _, _, _, .number h hp hr, h' => by
    cases h' <;> simp_all [numberOf] <;> (subst h; cases hp)
  | _, _, _, .numbers h hp hr, h' => by
    cases h' <;> simp_all [numberOf] <;> (subst h; cases hp)
  | _, _, _, .string h hr, h' => by
    cases h' <;> simp_all [numberOf]
  | _, _, _, .strings h hr, h' => by
    cases h' <;> simp_all [numberOf]
  | _, _, _, .bytes h hr, h' => by
    cases h' <;> simp_all [numberOf]
  | _, _, _, .octets h hr, h' => by
    cases h' <;> simp_all [numberOf]
  | _, _, _, .message h hi hm ht hr, h' => by
    cases h' with
    | message h2 hi2 hm2 ht2 hr2 =>
      rw [hi] at hi2; cases hi2
      rw [hm] at hm2; cases hm2
      exact MessageTy.unique ht ht2
    | _ => simp_all
  | _, _, _, .messages h hi hm ht hr, h' => by
    cases h' with
    | messages h2 hi2 hm2 ht2 hr2 =>
      rw [hi] at hi2; cases hi2
      rw [hm] at hm2; cases hm2
      rw [MessageTy.unique ht ht2]
    | _ => simp_all
theorem MessageTy.unique {msgs : List Message} {ctx : Ctx} {b64 : Bool} : ∀ {t : Ty} {m : Message} {t' : Ty},
    MessageTy msgs ctx b64 m t → MessageTy msgs ctx b64 m t' → t = t'
  | _, _, _, .mk h, .mk h' => by rw [FieldsTy.unique h h']
theorem FieldsTy.unique {msgs : List Message} {ctx : Ctx} {b64 : Bool} : ∀ {fs : Fields} {l : List Field} {fs' : Fields},
    FieldsTy msgs ctx b64 l fs → FieldsTy msgs ctx b64 l fs' → fs = fs'
  | _, _, _, .nil, .nil => rfl
  | _, _, _, .cons h hr, .cons h' hr' => by rw [FieldTy.unique h h', FieldsTy.unique hr hr']
end

/-! ### C56 -/

/-- The JSON names of the persistent fields of a message are distinct, and need no escaping in JSON text. -/
def JsonNames (ctx : Ctx) (m : Message) : Prop :=
  ((m.fields.filter Persistent).map (jsonNameIn ctx)).Nodup ∧
  ∀ f ∈ m.fields, Persistent f = true → ∀ b ∈ jsonNameIn ctx f, rfcRaw b

theorem fields_labels {msgs : List Message} {ctx : Ctx} {b64 : Bool} : ∀ {l : List Field} {fs : Fields},
    FieldsTy msgs ctx b64 l fs → fs.labels = (l.filter Persistent).map (jsonNameIn ctx) ∧
      fs.keys = (l.filter Persistent).map fun f => if ctx.obfuscate then reveal (jsonNameIn ctx f) else jsonNameIn ctx f
  | _, _, .nil => ⟨rfl, rfl⟩
  | f :: l, _, .cons h hr => by
    obtain ⟨h1, h2⟩ := fields_labels hr
    rw [Fields.labels, Fields.keys, h1, h2, fieldInfo]
    cases hp : Persistent f with
    | true => rw [List.filter_cons_of_pos hp]; exact ⟨rfl, rfl⟩
    | false =>
      rw [List.filter_cons_of_neg (by rw [hp]; exact Bool.false_ne_true)]
      exact ⟨rfl, rfl⟩

mutual
theorem FieldTy.ok {msgs : List Message} {ctx : Ctx} {b64 : Bool} (hj : ∀ m ∈ msgs, JsonNames ctx m) : ∀ {f : Field} {t : Ty},
    FieldTy msgs ctx b64 f t → t.LabelsOk ∧ t.NamesOk
  | _, _, .number .. => ⟨trivial, trivial⟩
  | _, _, .numbers .. => ⟨trivial, trivial⟩
  | _, _, .string .. => ⟨trivial, trivial⟩
  | _, _, .strings .. => ⟨trivial, trivial⟩
  | _, _, .bytes .. => ⟨trivial, trivial⟩
  | _, _, .octets .. => ⟨trivial, trivial⟩
  | _, _, .message _ _ hm ht _ => MessageTy.ok hj (List.mem_of_getElem? hm) ht
  | _, _, .messages _ _ hm ht _ => by
    have h := MessageTy.ok hj (List.mem_of_getElem? hm) ht
    exact ⟨h.1, h.2⟩
theorem MessageTy.ok {msgs : List Message} {ctx : Ctx} {b64 : Bool} (hj : ∀ m ∈ msgs, JsonNames ctx m) : ∀ {m : Message} {t : Ty},
    m ∈ msgs → MessageTy msgs ctx b64 m t → t.LabelsOk ∧ t.NamesOk
  | m, _, hm, .mk h => by
    obtain ⟨h1, h2⟩ := FieldsTy.ok hj h (hj m hm).2
    obtain ⟨h3, h4⟩ := fields_labels h
    refine ⟨h1, ?_, ?_, h2⟩
    · unfold KeysMatch
      rw [h3, h4, List.map_map]
      refine List.map_congr_left fun f hf => ?_
      have : m.fields.any Persistent = true :=
        List.any_eq_true.mpr ⟨f, (List.mem_filter.mp hf).1, (List.mem_filter.mp hf).2⟩
      rw [this, Bool.and_true]
      rfl
    · rw [h3]; exact (hj m hm).1
theorem FieldsTy.ok {msgs : List Message} {ctx : Ctx} {b64 : Bool} (hj : ∀ m ∈ msgs, JsonNames ctx m) :
    ∀ {l : List Field} {fs : Fields}, FieldsTy msgs ctx b64 l fs →
      (∀ f ∈ l, Persistent f = true → ∀ b ∈ jsonNameIn ctx f, rfcRaw b) → fs.LabelsOk ∧ fs.NamesOk
  | _, _, .nil, _ => ⟨trivial, trivial⟩
  | f :: l, _, .cons h hr, hl => by
    obtain ⟨h1, h2⟩ := FieldTy.ok hj h
    obtain ⟨h3, h4⟩ := FieldsTy.ok hj hr fun g hg => hl g (List.mem_cons_of_mem _ hg)
    refine ⟨⟨fun hp => ?_, h1, h3⟩, h2, h4⟩
    unfold fieldInfo at hp ⊢
    split at hp
    · rename_i hpf
      rw [if_pos hpf]
      exact hl f List.mem_cons_self hpf
    · cases hp
end

/-- What the generated code can rely on. -/
structure Regular (t : Tree) : Prop where
  distinct : NamesDistinct t
  literal : LiteralNames t
  bytes : BytesSupported t
  json : ∀ m ∈ t.messages, JsonNames (ctxOf t.options) m

/-- Every object of the type survives writing and reading. -/
def RoundTrips (ty : Ty) : Prop :=
  ∀ (params q : Option Params) (v : ty.Den), ty.Writable (fun b => b ≠ 0) (params.getD {}).ensureAscii v →
    ty.NoNulls v → ty.isNull v = false → ty.Faithful (params.getD {}).serializeNull v →
    (serialize ty params v).ret = true ∧
      ∃ p, deserialize ty (serialize ty params v).out q ty.new = some ⟨true, p, v⟩

/-- **C56.** For every accepted schema that is regular, the generated classes write and read their objects faithfully: what
`serialize` of the class prints, `deserialize` reads back as an equal object. -/
theorem C56_round_trip {N : Nat} {text : Bytes} {t : Tree} (h : parse N text = .ok t) {fileName : Bytes}
    (hok : (output fileName t).res = .ok ()) (hr : Regular t) :
    ∃ cs, classesOf (output fileName t).calls = some cs ∧
      ∀ m ∈ t.messages, ∃ ty, cs.find (className m) = some ty ∧ RoundTrips ty := by
  obtain ⟨cs, h1, _, h2⟩ := C55_classes h hok hr.distinct hr.literal hr.bytes
  refine ⟨cs, h1, fun m hm => ?_⟩
  have hj : ∀ m ∈ (sortTree t).messages, JsonNames (ctxOf t.options) m := by
    intro m hm
    obtain ⟨m', hm', rfl⟩ := sorted_message hm
    obtain ⟨a, b⟩ := hr.json m' hm'
    refine ⟨?_, fun f hf => b f (mem_sortByName.mp hf)⟩
    exact ((((sortByName_perm m'.fields).filter Persistent).map (jsonNameIn (ctxOf t.options))).nodup_iff).mpr a
  have hms : { m with fields := sortByName m.fields } ∈ (sortTree t).messages := List.mem_map_of_mem hm
  obtain ⟨ty, h3, h4⟩ := h2 _ hms
  obtain ⟨h5, h6⟩ := MessageTy.ok hj hms h4
  exact ⟨ty, h3, fun params q v hw hn h0 hf => C01_message_round_trip ty params q v h5 h6 hw hn h0 hf⟩

/-! ### Schemas that are regular -/

theorem ident_plain {n : Bytes} (h : Ident n) : PlainName n ∧ ∀ b ∈ n, rfcRaw b := by
  constructor
  · intro c hc
    obtain ⟨_, _, _, h1, h2, h3, h4, h5⟩ := nameByte_facts (ident_bytes h c hc)
    exact ⟨h1, h2, h3, h4, h5⟩
  · intro c hc
    obtain ⟨_, _, h0, h1, h2, h3, h4, h5⟩ := nameByte_facts (ident_bytes h c hc)
    exact ⟨h0, h1, h3⟩

theorem decNat_plain (n : Nat) : PlainName (decNat n) ∧ ∀ b ∈ decNat n, rfcRaw b := by
  constructor
  · intro c hc
    obtain ⟨_, _, _, h1, h2, h3, h4, h5⟩ := nameByte_facts (Or.inr (decNat_digits' n c hc))
    exact ⟨h1, h2, h3, h4, h5⟩
  · intro c hc
    obtain ⟨_, _, h0, h1, h2, h3, h4, h5⟩ := nameByte_facts (Or.inr (decNat_digits' n c hc))
    exact ⟨h0, h1, h3⟩

/-- **C56.** With numbered names, without obfuscation, a schema is regular as soon as its names are distinct and its bytes
fields have support. -/
theorem C56_numbered {N : Nat} {text : Bytes} {t : Tree} (h : parse N text = .ok t)
    (hn : (ctxOf t.options).numberNames = true) (ho : (ctxOf t.options).obfuscate = false) (hd : NamesDistinct t)
    (hb : BytesSupported t) : Regular t := by
  refine ⟨hd, fun m hm f hf _ => ?_, hb, fun m hm => ⟨?_, fun f hf _ => ?_⟩⟩
  · obtain ⟨n, _, e, _⟩ := C34_names hn h hm hf
    simp only [ho, Bool.false_eq_true, if_false]
    rw [e]
    exact (decNat_plain n).1
  · exact ((C34_distinct hn h hm).sublist ((List.filter_sublist).map _))
  · obtain ⟨n, _, e, _⟩ := C34_names hn h hm hf
    rw [e]
    exact (decNat_plain n).2

/-- **C56.** The same holds for the names of the fields themselves, if there are no `name` options. -/
theorem C56_default {N : Nat} {text : Bytes} {t : Tree} (h : parse N text = .ok t)
    (hn : (ctxOf t.options).numberNames = false) (ho : (ctxOf t.options).obfuscate = false) (hd : NamesDistinct t)
    (hb : BytesSupported t) (hno : ∀ m ∈ t.messages, ∀ f ∈ m.fields, f.options.find b!"name" = none) : Regular t := by
  have e : ∀ m ∈ t.messages, ∀ f ∈ m.fields, jsonNameIn (ctxOf t.options) f = f.name := by
    intro m hm f hf
    simp only [jsonNameIn, hn, Bool.false_eq_true, if_false, givenName, hno m hm f hf]
  refine ⟨hd, fun m hm f hf _ => ?_, hb, fun m hm => ⟨?_, fun f hf _ => ?_⟩⟩
  · simp only [ho, Bool.false_eq_true, if_false]
    rw [e m hm f hf]
    exact (ident_plain ((parse_names h hm).2.2 f hf).1).1
  · have : (m.fields.filter Persistent).map (jsonNameIn (ctxOf t.options)) = (m.fields.filter Persistent).map (·.name) :=
      List.map_congr_left fun f hf => e m hm f (List.mem_filter.mp hf).1
    rw [this]
    exact (hd.2 m hm).sublist ((List.filter_sublist).map _)
  · rw [e m hm f hf]
    exact (ident_plain ((parse_names h hm).2.2 f hf).1).2

/-- A schema with most kinds of fields. -/
def shopText : Bytes :=
  b!"package shop; message Order { int64 id = 1; repeated Item items = 2; Item gift = 3; repeated string tags = 4; bytes key = 5; string memo = 6 [transient = true]; repeated double weights = 7; } message Item { string title = 1; bool sold = 2; }"
/-- Its tree. -/
def shopTree : Tree := treeOf (parse 500 shopText)
theorem shop_parse : parse 500 shopText = .ok shopTree := by decide +kernel
theorem shop_ok : (output b!"shop.proto" shopTree).res = .ok () := by decide +kernel

theorem shop_regular : Regular shopTree :=
  C56_default shop_parse (by decide +kernel) (by decide +kernel) ⟨by decide +kernel, by decide +kernel⟩
    (fun _ => Or.inr ⟨by unfold HasField; decide +kernel, by
      refine ⟨shopTree.messages.head (by decide +kernel), by decide +kernel, (shopTree.messages.head (by decide +kernel)).fields.head (by decide +kernel),
        by decide +kernel, .int64, by decide +kernel, by decide, by decide⟩⟩)
    (by decide +kernel)

/-- A persistent field whose JSON name is its own name. -/
def own (name : Bytes) : FInfo := ⟨name, name, name, false⟩
/-- The type of the items. -/
def itemTy : Ty := .msg false (.cons (own b!"sold") (.num .bool) (.cons (own b!"title") .str .nil))
/-- The type of the orders. -/
def orderTy : Ty := .msg false
  (.cons (own b!"gift") itemTy (.cons (own b!"id") (.num (.int .i64)) (.cons (own b!"items") (.rep itemTy)
  (.cons (own b!"key") (.rep (.raw (.int .u8))) (.cons ⟨b!"memo", [], [], true⟩ .str (.cons (own b!"tags") (.rep .str)
  (.cons (own b!"weights") (.rep (.raw (.flt .f64))) .nil)))))))

/-- The classes of this schema, and their types. -/
theorem shop_classes : classesOf (output b!"shop.proto" shopTree).calls =
    some [(b!" ::shop::Item", itemTy), (b!" ::shop::Order", orderTy)] := by decide +kernel

example : RoundTrips itemTy ∧ RoundTrips orderTy := by
  obtain ⟨cs, h1, h2⟩ := C56_round_trip shop_parse shop_ok shop_regular
  rw [shop_classes] at h1
  injection h1 with h1
  subst h1
  obtain ⟨a, ha, ra⟩ := h2 (shopTree.messages[1]'(by decide +kernel)) (List.getElem_mem _)
  obtain ⟨b, hb, rb⟩ := h2 (shopTree.messages[0]'(by decide +kernel)) (List.getElem_mem _)
  have ea : Classes.find [(b!" ::shop::Item", itemTy), (b!" ::shop::Order", orderTy)]
    (className (shopTree.messages[1]'(by decide +kernel))) = some itemTy := by decide +kernel
  have eb : Classes.find [(b!" ::shop::Item", itemTy), (b!" ::shop::Order", orderTy)]
    (className (shopTree.messages[0]'(by decide +kernel))) = some orderTy := by decide +kernel
  rw [ea] at ha
  rw [eb] at hb
  cases ha
  cases hb
  exact ⟨ra, rb⟩

/-! ### Schemas that are not regular -/

/-- The generated file is not a program. -/
def NotAProgram (text : Bytes) : Prop :=
  let t := treeOf (parse 500 text)
  parse 500 text = .ok t ∧ (output b!"a.proto" t).res = .ok () ∧ (classesOf (output b!"a.proto" t).calls).isNone = true

/-- **C55 (negation).** Without the conditions it is false: two messages of the same name, or two fields of the same name,
are accepted, and code is generated that defines a class or a member twice; a bytes field alone gets no support of the
runtime. -/
theorem C55_is_false :
    NotAProgram b!"message A { int32 x = 1; } message A { string y = 1; }" ∧
    NotAProgram b!"message A { int32 x = 1; string x = 2; }" ∧
    NotAProgram b!"message A { bytes x = 1; }" := by
  unfold NotAProgram
  decide +kernel

/-- Two fields with the same JSON name. -/
def twinText : Bytes := b!"message A { int32 x = 1 [name = \"k\"]; int32 y = 2 [name = \"k\"]; }"
/-- The type of the message. -/
def twinTy : Ty := .msg false (.cons ⟨b!"x", b!"k", b!"k", false⟩ (.num (.int .i32))
  (.cons ⟨b!"y", b!"k", b!"k", false⟩ (.num (.int .i32)) .nil))
/-- An object. -/
def twin : twinTy.Den := (⟨CInt.cast .i32 1, false⟩, ⟨CInt.cast .i32 2, false⟩, ())

/-- **C56 (negation).** Without distinct JSON names it is false: for this schema the object (1, 2) is written as
`{"k":1,"k":2}` and read back as (2, unset). -/
theorem C56_is_false :
    (let t := treeOf (parse 500 twinText)
     parse 500 twinText = .ok t ∧ (output b!"a.proto" t).res = .ok () ∧
     classesOf (output b!"a.proto" t).calls = some [(b!" ::A", twinTy)]) ∧
    (serialize twinTy none twin).out = b!"{\"k\":1,\"k\":2}" ∧
    (deserialize twinTy (serialize twinTy none twin).out none twinTy.new).map (·.obj) =
      some ((⟨CInt.cast .i32 2, false⟩, NumField.new, ()) : twinTy.Den) ∧
    ¬ RoundTrips twinTy := by
  refine ⟨by decide +kernel, by decide +kernel,
    @of_decide_eq_true _ ((letI := Ty.decEq twinTy; inferInstance : DecidableEq (Option twinTy.Den)) _ _) (by decide +kernel), ?_⟩
  · intro h
    obtain ⟨_, p, hp⟩ := h none none twin
      (Ty.Writable.mono (fun _ => of_decide_eq_true) _ _
        (Ty.writableB_sound (fun b => decide (b ≠ 0)) _ twinTy twin (by decide +kernel)))
      (Ty.noNullsB_sound twinTy twin (by decide +kernel)) (by decide +kernel)
      (Ty.faithfulB_sound _ twinTy twin (by decide +kernel))
    have : (deserialize twinTy (serialize twinTy none twin).out none twinTy.new).all
      (fun r => decide (r.obj ≠ twin)) = true := by decide +kernel
    rw [hp] at this
    simp at this

end PG.Gen
