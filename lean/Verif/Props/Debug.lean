import Verif.Model.Debug
import Verif.Props.Grammar
import Verif.Proofs.NumText
/-
C65, C66: the output operators of debug builds.
-/
set_option autoImplicit false
namespace PG.Proto

/-! ### C65: the names of tokens -/

/-- The name of a scalar type in capitals. -/
def Scalar.title (t : Scalar) : Bytes := t.text.map fun b => if 97 ≤ b ∧ b ≤ 122 then b - 32 else b

/-- The names of the token codes (proto3.cc:30-70), without `TOKEN_`. -/
def Code.title : Code → Bytes
  | .eof => b!"EOF" | .message => b!"MESSAGE" | .name => b!"NAME" | .equal => b!"EQUAL" | .repeated => b!"REPEATED"
  | .ty t => b!"T_" ++ t.title | .syntax => b!"SYNTAX" | .qname => b!"QNAME" | .string => b!"STRING"
  | .integer => b!"INTEGER" | .enum => b!"ENUM" | .scolon => b!"SCOLON" | .package => b!"PACKAGE" | .lt => b!"LT"
  | .gt => b!"GT" | .map => b!"MAP" | .comma => b!"COMMA" | .begin => b!"BEGIN" | .end => b!"END" | .option => b!"OPTION"
  | .true => b!"TRUE" | .false => b!"FALSE" | .lbracket => b!"LBRACKET" | .rbracket => b!"RBRACKET"
  | .optional => b!"OPTIONAL"

/-- The codes that are named right. -/
def Code.early (c : Code) : Prop := c = .eof ∨ c = .message ∨ c = .name ∨ c = .equal ∨ c = .repeated

/-- C65 (partial).  The full statement is that every token is shown with the name of its code:
`∀ t : Tok, ∃ rest, t.show = some (b!"[TOKEN_" ++ t.code.title ++ b!": " ++ rest)`.  This holds for the codes before the
scalar types only. -/
theorem C65_named_partial (t : Tok) (h : t.code.early) : ∃ rest, t.show = some (b!"[TOKEN_" ++ t.code.title ++ b!": " ++ rest) := by
  have key : TOKENS[t.code.num]? = some (b!"TOKEN_" ++ t.code.title) := by
    rcases h with h | h | h | h | h <;> rw [h] <;> decide +kernel
  refine ⟨(if t.value = [] then [] else b!"value='" ++ t.value ++ b!"' ") ++ b!"pos=" ++ decNat t.line ++ b!":" ++ decNat t.col ++ b!"]", ?_⟩
  rw [Tok.show, key, Option.map_some]
  simp

/-- All codes. -/
def allCodes : List Code :=
  [.eof, .message, .name, .equal, .repeated, .syntax, .qname, .string, .integer, .enum, .scolon, .package, .lt, .gt, .map,
    .comma, .begin, .end, .option, .true, .false, .lbracket, .rbracket, .optional] ++
  [Scalar.double, .float, .int32, .int64, .uint32, .uint64, .sint32, .sint64, .fixed32, .fixed64, .sfixed32, .sfixed64, .bool,
    .string, .bytes].map .ty

theorem mem_allCodes (c : Code) : c ∈ allCodes := by
  cases c with
  | ty t => cases t <;> simp [allCodes]
  | _ => simp [allCodes]

/-- C65 (negation).  Every other token is shown with the name of another code: the table lacks an entry for the unused
number 5. -/
theorem C65_misnamed (c : Code) (h : ¬ c.early) (ho : c ≠ .optional) :
    ∃ n, TOKENS[c.num]? = some n ∧ n ≠ b!"TOKEN_" ++ c.title ∧
      ∀ c' : Code, c'.num = c.num + 1 → n = b!"TOKEN_" ++ c'.title := by
  have key : (allCodes.all fun c => c.num < 6 || c == .optional || ((TOKENS[c.num]?).isSome &&
      TOKENS[c.num]? != some (b!"TOKEN_" ++ c.title) &&
      allCodes.all fun c' => c'.num != c.num + 1 || TOKENS[c.num]? == some (b!"TOKEN_" ++ c'.title))) = true := by
    decide +kernel
  have h6 : 6 ≤ c.num := by
    cases c with
    | ty t => cases t <;> decide
    | eof => exact absurd (.inl rfl) h
    | message => exact absurd (.inr (.inl rfl)) h
    | name => exact absurd (.inr (.inr (.inl rfl))) h
    | equal => exact absurd (.inr (.inr (.inr (.inl rfl)))) h
    | repeated => exact absurd (.inr (.inr (.inr (.inr rfl)))) h
    | _ => decide
  have hk := List.all_eq_true.mp key c (mem_allCodes c)
  simp only [Bool.or_eq_true, Bool.and_eq_true, decide_eq_true_eq, beq_iff_eq, bne_iff_ne] at hk
  rcases hk with (hk | hk) | ⟨⟨k1, k2⟩, k3⟩
  · omega
  · exact absurd hk ho
  obtain ⟨n, hn⟩ := Option.isSome_iff_exists.mp k1
  refine ⟨n, hn, fun e => k2 (by rw [hn, e]), fun c' hc' => ?_⟩
  have := List.all_eq_true.mp k3 c' (mem_allCodes c')
  simp only [Bool.or_eq_true, beq_iff_eq, bne_iff_ne, ne_eq, hc', not_true, false_or] at this
  rw [hn] at this
  exact Option.some.inj this

/-- C65 (negation).  Showing the token `optional` reads past the end of the table: undefined behaviour. -/
theorem C65_out_of_bounds (t : Tok) : t.show = none ↔ t.code = .optional := by
  have key : TOKENS[t.code.num]? = none ↔ t.code = .optional := by
    cases h : t.code with
    | ty s => cases s <;> decide
    | _ => decide
  rw [← key, Tok.show, Option.map_eq_none_iff]

example : (⟨.name, b!"abc", 3, 14⟩ : Tok).show = some b!"[TOKEN_NAME: value='abc' pos=3:14]" := by decide +kernel
example : (⟨.scolon, [], 3, 14⟩ : Tok).show = some b!"[TOKEN_PACKAGE: pos=3:14]" := by decide +kernel

/-! ### C66: what is shown of a schema is a schema -/

/-- The messages as `operator<<(ostream&, Message&)` prints them, each followed by a line feed: what the loop of
proto3.cc:849-852 would print if it printed the messages and not their addresses. -/
def showMessages : List Message → Option Bytes
  | [] => some []
  | m :: ms => m.show.bind fun a => (showMessages ms).map fun b => a ++ b!"\n" ++ b

/-- The messages of a schema, printed one after the other. -/
def Tree.dump (t : Tree) : Option Bytes := showMessages t.messages

/-- A text that begins like an address is no schema. -/
theorem address_rejected (N : Nat) (r : Bytes) : parse (N + 1) (48 :: 120 :: r) = .exc ⟨.unexpectedToken, 1, 1⟩ := by
  rfl

/-- C66 (negation).  What a debug build prints for a schema is never a schema, unless the schema has no messages: it is the
addresses of the messages, and reading it back fails at the first character. -/
theorem C66_addresses (addr : Nat → Nat) (t : Tree) (h : t.messages ≠ []) (N : Nat) (hN : 0 < N) :
    parse N (t.show addr) = .exc ⟨.unexpectedToken, 1, 1⟩ := by
  obtain ⟨N, rfl⟩ : ∃ n, N = n + 1 := ⟨N - 1, by omega⟩
  obtain ⟨n, hn⟩ : ∃ n, t.messages.length = n + 1 := by
    cases hm : t.messages with
    | nil => exact absurd hm h
    | cons m ms => exact ⟨ms.length, rfl⟩
  rw [Tree.show, hn, List.range_succ_eq_map]
  simp only [List.flatMap_cons, ptrText, List.cons_append, List.append_assoc]
  exact address_rejected N _

/-- The names, types and numbers of the fields are not in it at all: it only depends on how many messages there are. -/
theorem C66_addresses_only (addr : Nat → Nat) (t t' : Tree) (h : t.messages.length = t'.messages.length) :
    t.show addr = t'.show addr := by rw [Tree.show, Tree.show, h]

example : (⟨[⟨[], b!"A", [], []⟩, ⟨[], b!"B", [], []⟩], [], []⟩ : Tree).show (fun i => 672 + 32 * i) =
    b!"0x2a0\n0x2c0\n" := by
  have h1 : hexNat 672 = b!"2a0" := by
    rw [hexNat, if_neg (by decide), hexNat, if_neg (by decide), hexNat, if_pos (by decide)]; decide
  have h2 : hexNat 704 = b!"2c0" := by
    rw [hexNat, if_neg (by decide), hexNat, if_neg (by decide), hexNat, if_pos (by decide)]; decide
  show (b!"0x" ++ hexNat 672 ++ b!"\n") ++ ((b!"0x" ++ hexNat 704 ++ b!"\n") ++ []) = _
  rw [h1, h2]; rfl

/-- The field as it is shown: without options and without `optional`. -/
def Field.decl (f : Field) : FieldDecl :=
  { label := if f.type.repeated then .repeated else .none,
    type := match f.type.id with
      | .scalar t => .scalar t
      | .message => .named f.type.qname,
    name := f.name, number := decInt f.index, options := .none }

/-- The message as it is shown. -/
def Message.decl (m : Message) : Decl := .message m.name (m.fields.map fun f => .field f.decl)

/-- The message with what is not shown taken away. -/
def Message.bare (m : Message) : Message :=
  { name := m.name, package := [], options := [],
    fields := m.fields.map fun f => { f with type := { f.type with optional := false }, options := [] } }

theorem Gap.append {g g' : Bytes} (h : Gap g) (h' : Gap g') : Gap (g ++ g') := by
  induction h with
  | nil => exact h'
  | space hb _ ih => exact .space hb ih
  | @line c g hc _ ih => simpa using Gap.line hc ih
  | @block c g hc _ ih => simpa using Gap.block hc ih

theorem Layout.gap {ls : List Lexeme} {r g : Bytes} (h : Layout ls r) (hg : Gap g) : Layout ls (g ++ r) := by
  cases h with
  | done h => exact .done (hg.append h)
  | @next l ls g' rest hg' hl he h =>
    have := Layout.next (hg.append hg') hl he h
    simpa using this

theorem Layout.lexeme {l : Lexeme} {ls : List Lexeme} {r : Bytes} (h : Layout ls r) (hl : l.Valid) (he : l.Ends r) :
    Layout (l :: ls) (l.text ++ r) := by
  simpa using Layout.next .nil hl he h

theorem Layout.blank {ls : List Lexeme} {r : Bytes} (h : Layout ls r) : Layout ls (b!" " ++ r) :=
  h.gap (.space (by decide) .nil)

theorem Layout.lf {ls : List Lexeme} {r : Bytes} (h : Layout ls r) : Layout ls (b!"\n" ++ r) :=
  h.gap (.space (by decide) .nil)

theorem Layout.word {n : Bytes} {ls : List Lexeme} {r : Bytes} (h : Layout ls r) (hn : DotName n) :
    Layout (.word n :: ls) (n ++ (b!" " ++ r)) :=
  h.blank.lexeme (l := .word n) hn (ends_space _ _)

theorem Layout.sym {b : Byte} {ls : List Lexeme} {r : Bytes} (h : Layout ls r) (hb : b ∈ b!"={};,<>[]") :
    Layout (.sym b :: ls) (b :: r) := h.lexeme (l := .sym b) hb trivial

theorem Scalar.shown (t : Scalar) : TYPES[t.num - 6]? = some t.text := by cases t <;> decide

theorem decInt_digits {i : Int} (h : 0 < i) : Digits (decInt i) := by
  rw [decInt, if_neg (by omega)]
  refine ⟨decNat_ne_nil _, fun c hc => ?_⟩
  have := decNat_digits _ c hc
  simp only [isDigit, Bool.and_eq_true, decide_eq_true_eq] at this
  exact this

theorem number_decNat (n : Nat) : number (decNat n) = n := by
  have h := decNat_val n
  unfold digitsVal at h
  unfold number
  simpa only [Nat.mul_comm] using h

theorem index_decl {f : Field} (h : GoodIndex f.index) : f.decl.index = f.index := by
  obtain ⟨h1, h2, -⟩ := h
  have e : decInt f.index = decNat f.index.toNat := by rw [decInt, if_neg (by omega)]; congr 1; omega
  rw [FieldDecl.index, Field.decl, e]
  simp only
  rw [number_decNat, C45_as_written_partial (by omega)]
  omega

/-- How a field is shown. -/
theorem Field.show_eq (f : Field) : f.show = some ((if f.type.repeated then b!"repeated " else []) ++
    ((match f.type.id with | .scalar t => t.text | .message => f.type.qname) ++ (b!" " ++ (f.name ++ (b!" " ++ (c!"=" ::
      (b!" " ++ (decInt f.index ++ b!";")))))))) := by
  unfold Field.show
  cases h : f.type.id with
  | scalar t => simp only [Scalar.shown, Option.map_some, Option.some.injEq]; simp
  | message => simp

theorem Field.show_layout {f : Field} {s : Bytes} (hs : f.show = some s) (hw : f.decl.WF) {ls : List Lexeme} {r : Bytes}
    (h : Layout ls r) : Layout (f.decl.lexemes ++ ls) (s ++ r) := by
  rw [Field.show_eq] at hs
  injection hs with hs
  subst hs
  obtain ⟨h1, h2, h3, -⟩ := hw
  have hend : Layout (.int (decInt f.index) :: .sym c!";" :: ls) (decInt f.index ++ (c!";" :: r)) :=
    (h.sym (b := c!";") (by decide)).lexeme (l := .int (decInt f.index)) h3 (by decide : ¬ Digit c!";")
  have hname : Layout (.word f.name :: .sym c!"=" :: .int (decInt f.index) :: .sym c!";" :: ls)
      (f.name ++ (b!" " ++ (c!"=" :: (b!" " ++ (decInt f.index ++ (c!";" :: r)))))) :=
    ((hend.blank).sym (by decide)).word (.one h2.1)
  have hty : Layout (f.decl.type.lexeme :: .word f.name :: .sym c!"=" :: .int (decInt f.index) :: .sym c!";" :: ls)
      ((match f.type.id with | .scalar t => t.text | .message => f.type.qname) ++
        (b!" " ++ (f.name ++ (b!" " ++ (c!"=" :: (b!" " ++ (decInt f.index ++ (c!";" :: r)))))))) := by
    unfold Field.decl at h1 ⊢
    simp only at h1 ⊢
    cases h : f.type.id with
    | scalar t => exact hname.word (scalar_valid t)
    | message => rw [h] at h1; exact hname.word h1.1
  have hrep : Layout (f.decl.label.lexemes ++ (f.decl.type.lexeme :: .word f.name :: .sym c!"=" :: .int (decInt f.index) ::
      .sym c!";" :: ls)) ((if f.type.repeated then b!"repeated " else []) ++
      ((match f.type.id with | .scalar t => t.text | .message => f.type.qname) ++
        (b!" " ++ (f.name ++ (b!" " ++ (c!"=" :: (b!" " ++ (decInt f.index ++ (c!";" :: r))))))))) := by
    cases hr : f.type.repeated with
    | false =>
      have e : f.decl.label = .none := by simp [Field.decl, hr]
      rw [e]
      simpa [Label.lexemes] using hty
    | true =>
      have e : f.decl.label = .repeated := by simp [Field.decl, hr]
      rw [e]
      have := hty.word (n := b!"repeated") (reserved_valid (by decide +kernel))
      simpa [Label.lexemes] using this
  have e1 : f.decl.lexemes ++ ls = f.decl.label.lexemes ++ (f.decl.type.lexeme :: .word f.name :: .sym c!"=" ::
      .int (decInt f.index) :: .sym c!";" :: ls) := by
    simp [FieldDecl.lexemes, Field.decl, bracketLexemes]
  rw [e1]
  simpa using hrep

theorem showFields_layout : {fs : List Field} → (∀ f ∈ fs, f.decl.WF) →
    ∃ s, showFields fs = some s ∧ ∀ {ls : List Lexeme} {r : Bytes}, Layout ls r →
      Layout (fs.flatMap (fun f => f.decl.lexemes) ++ ls) (s ++ r)
  | [], _ => ⟨[], rfl, fun h => by simpa using h⟩
  | f :: fs, hw => by
    obtain ⟨s, h1, h2⟩ := showFields_layout (fs := fs) fun g hg => hw g (List.mem_cons_of_mem _ hg)
    obtain ⟨a, hf⟩ : ∃ a, f.show = some a := ⟨_, f.show_eq⟩
    refine ⟨a ++ b!"\n" ++ s, by rw [showFields, hf, h1]; rfl, fun h => ?_⟩
    have := Field.show_layout hf (hw f List.mem_cons_self) (h2 h).lf
    simpa using this

theorem Message.show_layout {m : Message} (hw : m.decl.WF) :
    ∃ s, m.show = some s ∧ ∀ {ls : List Lexeme} {r : Bytes}, Layout ls r → Layout (m.decl.lexemes ++ ls) (s ++ r) := by
  obtain ⟨hn, hf⟩ := hw
  obtain ⟨s, h1, h2⟩ := showFields_layout (fs := m.fields) fun f hf' => hf (.field f.decl) (List.mem_map_of_mem hf')
  refine ⟨b!"message " ++ m.name ++ b!" {\n" ++ s ++ b!"}\n", by rw [Message.show, h1]; rfl, fun h => ?_⟩
  have h3 := h2 (h.lf.sym (b := c!"}") (by decide))
  have h4 := ((h3.lf.sym (b := c!"{") (by decide)).word (.one hn.1)).word (n := b!"message") (reserved_valid (by decide +kernel))
  have e : m.decl.lexemes = .word b!"message" :: .word m.name :: .sym c!"{" ::
      (m.fields.flatMap (fun f => f.decl.lexemes) ++ [.sym c!"}"]) := by
    simp [Message.decl, Decl.lexemes, Decl.opening, Decl.closing, List.flatMap_map, Item.lexemes]
  rw [e]
  simpa using h4

theorem showMessages_layout : {ms : List Message} → (∀ m ∈ ms, m.decl.WF) →
    ∃ s, showMessages ms = some s ∧ Layout (fileLexemes (ms.map Message.decl)) s
  | [], _ => ⟨[], rfl, .done .nil⟩
  | m :: ms, hw => by
    obtain ⟨s, h1, h2⟩ := showMessages_layout (ms := ms) fun g hg => hw g (List.mem_cons_of_mem _ hg)
    obtain ⟨a, h3, h4⟩ := Message.show_layout (hw m List.mem_cons_self)
    refine ⟨a ++ b!"\n" ++ s, by rw [showMessages, h3, h1]; rfl, ?_⟩
    have := h4 h2.lf
    simpa [fileLexemes] using this

theorem qualify_dot {p n : Bytes} (hp : DotName p) (hn : DotName n) : DotName (p ++ c!"." :: n) := by
  induction hp with
  | one h => exact .more h hn
  | more h _ ih => simpa using DotName.more h ih

theorem dot_not_reserved {p n : Bytes} : p ++ c!"." :: n ∉ reserved := fun h => reserved_nodot _ h (by simp)

theorem located_package : {ds : List Decl} → {p : Bytes} → (∀ d ∈ ds, d.WF) → (p = [] ∨ DotName p) →
    ∀ m ∈ located p ds, m.1 = [] ∨ DotName m.1
  | [], _, _, _, m, hm => by cases hm
  | .syntax :: ds, p, hw, hp, m, hm => located_package (ds := ds) (fun d hd => hw d (List.mem_cons_of_mem _ hd)) hp m hm
  | .option _ :: ds, p, hw, hp, m, hm => located_package (ds := ds) (fun d hd => hw d (List.mem_cons_of_mem _ hd)) hp m hm
  | .package q :: ds, p, hw, hp, m, hm =>
    located_package (ds := ds) (fun d hd => hw d (List.mem_cons_of_mem _ hd)) (.inr (hw (.package q) List.mem_cons_self).1) m hm
  | .message n b :: ds, p, hw, hp, m, hm => by
    rcases List.mem_cons.mp hm with rfl | hm
    · exact hp
    · exact located_package (ds := ds) (fun d hd => hw d (List.mem_cons_of_mem _ hd)) hp m hm

theorem located_wf : {ds : List Decl} → {p : Bytes} → (∀ d ∈ ds, d.WF) → ∀ m ∈ located p ds, (Decl.message m.2.1 m.2.2).WF
  | [], _, _, m, hm => by cases hm
  | .syntax :: ds, p, hw, m, hm => located_wf (ds := ds) (fun d hd => hw d (List.mem_cons_of_mem _ hd)) m hm
  | .option _ :: ds, p, hw, m, hm => located_wf (ds := ds) (fun d hd => hw d (List.mem_cons_of_mem _ hd)) m hm
  | .package q :: ds, p, hw, m, hm => located_wf (ds := ds) (fun d hd => hw d (List.mem_cons_of_mem _ hd)) m hm
  | .message n b :: ds, p, hw, m, hm => by
    rcases List.mem_cons.mp hm with rfl | hm
    · exact hw (.message n b) List.mem_cons_self
    · exact located_wf (ds := ds) (fun d hd => hw d (List.mem_cons_of_mem _ hd)) m hm

theorem dotname_ne_nil {n : Bytes} (h : DotName n) : n ≠ [] := by
  cases h with
  | one h => obtain ⟨b, r, rfl, -⟩ := h; simp
  | more h t => simp

/-- The declarations shown for an accepted file are well formed. -/
theorem parsed_decl {N : Nat} {text : Bytes} {t : Tree} (h : parse N text = .ok t) : ∀ m ∈ t.messages, m.decl.WF := by
  intro m hm
  have hidx := C45_valid_and_distinct h m hm
  obtain ⟨ds, hw, hc, he, -⟩ := parse_sound h
  obtain ⟨m', hm', hfs, hp, hn⟩ := erase_fields he hm
  obtain ⟨x, hx, rfl⟩ := List.mem_map.mp hm'
  have hxw := located_wf hw x hx
  have hxp := located_package hw (.inl rfl) x hx
  refine ⟨by rw [← hn]; exact hxw.1, fun i hi => ?_⟩
  obtain ⟨f, hf, rfl⟩ := List.mem_map.mp hi
  have hf' : f.erase ∈ (bodyMeaning x.2.1 x.2.2 x.1 fun q => position q (messageNames ds)).fields := by
    rw [hfs]; exact List.mem_map_of_mem hf
  obtain ⟨g, hg, hge⟩ := List.mem_map.mp hf'
  have hty : g.typeInfo x.1 (fun q => position q (messageNames ds)) = f.type := congrArg Field.type hge
  have hgn : g.name = f.name := congrArg Field.name hge
  obtain ⟨i, hi, hig⟩ := List.mem_filterMap.mp hg
  have hgw : g.WF := by
    cases i with
    | option o => cases hig
    | field g' => injection hig with hig; subst hig; exact hxw.2 _ hi
  refine ⟨?_, ?_, decInt_digits (hidx.1 f hf).1, by intro o ho; cases ho⟩
  · unfold Field.decl TypeRef.WF
    simp only [← hty, FieldDecl.typeInfo]
    have hgt := hgw.1
    cases hg' : g.type with
    | scalar s => trivial
    | named n =>
      rw [hg'] at hgt
      simp only [qualify]
      rcases hxp with hxp | hxp
      · rw [if_pos hxp]; exact hgt
      · rw [if_neg (dotname_ne_nil hxp)]
        exact ⟨qualify_dot hxp hgt.1, dot_not_reserved⟩
  · exact (show f.decl.name = g.name from hgn.symm) ▸ hgw.2.1

theorem located_decls : (ms : List Message) → located [] (ms.map Message.decl) =
    ms.map fun m => ([], m.name, m.fields.map fun f => Item.field f.decl)
  | [] => rfl
  | m :: ms => by rw [List.map_cons, Message.decl, located, located_decls ms]; rfl

theorem decl_fields (fs : List Field) : (fs.map fun f => Item.field f.decl).filterMap Item.field? = fs.map Field.decl := by
  induction fs with
  | nil => rfl
  | cons f fs ih => simp only [List.map_cons, List.filterMap_cons, Item.field?, ih]

theorem decl_options (fs : List Field) : (fs.map fun f => Item.field f.decl).filterMap Item.option? = [] := by
  induction fs with
  | nil => rfl
  | cons f fs ih => simp only [List.map_cons, List.filterMap_cons, Item.option?, ih]

theorem no_package_option : (ms : List Message) → lastPackage [] (ms.map Message.decl) = [] ∧ fileOptions (ms.map Message.decl) = []
  | [] => ⟨rfl, rfl⟩
  | m :: ms => by
    obtain ⟨h1, h2⟩ := no_package_option ms
    refine ⟨?_, ?_⟩
    · rw [List.map_cons, Message.decl, lastPackage]; exact h1
      all_goals (intro _ h; cases h)
    · rw [fileOptions, List.map_cons, List.filterMap_cons]
      exact h2

/-- What is shown of an accepted file is always a well formed schema. -/
theorem shown {N : Nat} {text : Bytes} {t : Tree} (h : parse N text = .ok t) :
    ∃ s, t.dump = some s ∧ Layout (fileLexemes (t.messages.map Message.decl)) s ∧
      ∀ d ∈ t.messages.map Message.decl, d.WF := by
  obtain ⟨s, h1, h2⟩ := showMessages_layout (parsed_decl h)
  refine ⟨s, h1, h2, fun d hd => ?_⟩
  obtain ⟨m, hm, rfl⟩ := List.mem_map.mp hd
  exact parsed_decl h m hm

/-- No field has a message of a package as its type. -/
def Unpackaged (t : Tree) : Prop :=
  ∀ m ∈ t.messages, ∀ f ∈ m.fields, ∀ i target, f.type.ref = some i → t.messages[i]? = some target → target.package = []

/-- Once in a package, always in a package. -/
theorem located_packaged : {ds : List Decl} → {p : Bytes} → (∀ d ∈ ds, d.WF) → p ≠ [] → ∀ m ∈ located p ds, m.1 ≠ []
  | [], _, _, _, m, hm => by cases hm
  | .syntax :: ds, p, hw, hp, m, hm => located_packaged (ds := ds) (fun d hd => hw d (List.mem_cons_of_mem _ hd)) hp m hm
  | .option _ :: ds, p, hw, hp, m, hm => located_packaged (ds := ds) (fun d hd => hw d (List.mem_cons_of_mem _ hd)) hp m hm
  | .package q :: ds, p, hw, hp, m, hm =>
    located_packaged (ds := ds) (fun d hd => hw d (List.mem_cons_of_mem _ hd))
      (dotname_ne_nil (hw (.package q) List.mem_cons_self).1) m hm
  | .message n b :: ds, p, hw, hp, m, hm => by
    rcases List.mem_cons.mp hm with rfl | hm
    · exact hp
    · exact located_packaged (ds := ds) (fun d hd => hw d (List.mem_cons_of_mem _ hd)) hp m hm

/-- The messages without a package come first. -/
theorem located_split : {ds : List Decl} → (∀ d ∈ ds, d.WF) →
    ∃ a b, located [] ds = a ++ b ∧ (∀ m ∈ a, m.1 = []) ∧ ∀ m ∈ b, m.1 ≠ []
  | [], _ => ⟨[], [], rfl, by simp, by simp⟩
  | .syntax :: ds, hw => located_split (ds := ds) fun d hd => hw d (List.mem_cons_of_mem _ hd)
  | .option _ :: ds, hw => located_split (ds := ds) fun d hd => hw d (List.mem_cons_of_mem _ hd)
  | .package q :: ds, hw =>
    ⟨[], located q ds, rfl, by simp, located_packaged (fun d hd => hw d (List.mem_cons_of_mem _ hd))
      (dotname_ne_nil (hw (.package q) List.mem_cons_self).1)⟩
  | .message n b :: ds, hw => by
    obtain ⟨x, y, h1, h2, h3⟩ := located_split (ds := ds) fun d hd => hw d (List.mem_cons_of_mem _ hd)
    refine ⟨([], n, b) :: x, y, by rw [located, h1]; rfl, fun m hm => ?_, h3⟩
    rcases List.mem_cons.mp hm with rfl | hm
    · rfl
    · exact h2 m hm

theorem position_append {q : Bytes} : {a : List Bytes} → q ∈ a → ∀ b b', position q (a ++ b) = position q (a ++ b')
  | [], h, _, _ => by cases h
  | n :: a, h, b, b' => by
    simp only [List.cons_append, position]
    by_cases hn : n = q
    · rw [if_pos hn, if_pos hn]
    · rw [if_neg hn, if_neg hn]
      rcases List.mem_cons.mp h with rfl | h
      · exact absurd rfl hn
      · rw [position_append h b b']

/-- The names of the messages as they are shown, and as they are. -/
theorem names_decl {t : Tree} {ds : List Decl} (hw : ∀ d ∈ ds, d.WF) (he : t.erase = denote ds) :
    ∃ a b b', messageNames (t.messages.map Message.decl) = a ++ b ∧ messageNames ds = a ++ b' ∧
      ∀ m ∈ t.messages, m.package = [] → m.name ∈ a := by
  obtain ⟨x, y, h1, h2, h3⟩ := located_split hw
  have e : t.messages.map (fun m => (m.package, m.name)) = (located [] ds).map fun m => (m.1, m.2.1) := by
    have e : t.messages.map Message.erase = (denote ds).messages := by rw [← he]; rfl
    have := congrArg (List.map fun m : Message => (m.package, m.name)) e
    simp only [denote, List.map_map] at this
    exact this
  refine ⟨x.map fun m => m.2.1, y.map fun m => m.2.1, y.map fun m => qualify m.1 m.2.1, ?_, ?_, fun m hm hp => ?_⟩
  · have := congrArg (List.map Prod.snd) e
    simp only [List.map_map] at this
    rw [messageNames, located_decls, List.map_map, ← List.map_append, ← h1]
    exact this
  · rw [messageNames, h1, List.map_append]
    congr 1
    refine List.map_congr_left fun m hm => ?_
    rw [h2 m hm]; rfl
  · have hm' : (m.package, m.name) ∈ (located [] ds).map fun m => (m.1, m.2.1) := by
      rw [← e]; exact List.mem_map.mpr ⟨m, hm, rfl⟩
    obtain ⟨z, hz, hze⟩ := List.mem_map.mp hm'
    injection hze with z1 z2
    rw [h1] at hz
    rcases List.mem_append.mp hz with hz | hz
    · exact List.mem_map.mpr ⟨z, hz, z2⟩
    · exact absurd (z1.trans hp) (h3 z hz)

theorem bare_type (g : FieldDecl) (p : Bytes) (ref ref' : Bytes → Option Nat) (f : Field) (h : g.typeInfo p ref = f.type)
    (hr : f.type.id = .message → ref' f.type.qname = ref f.type.qname) :
    f.decl.typeInfo [] ref' = { f.type with optional := false } := by
  unfold FieldDecl.typeInfo at h
  unfold FieldDecl.typeInfo Field.decl
  cases hg : g.type with
  | scalar s =>
    rw [hg] at h
    simp only at h
    rw [← h]
    cases g.label <;> rfl
  | named n =>
    rw [hg] at h
    simp only at h
    have e : qualify [] (qualify p n) = qualify p n := by rw [qualify, if_pos rfl]
    rw [← h] at hr ⊢
    simp only [e, hr]
    cases g.label <;> rfl

theorem decl_type {N : Nat} {text : Bytes} {t : Tree} (h : parse N text = .ok t) (hp : Unpackaged t)
    {m : Message} (hm : m ∈ t.messages) {f : Field} (hf : f ∈ m.fields) :
    f.decl.typeInfo [] (fun q => position q (messageNames (t.messages.map Message.decl))) =
      { f.type with optional := false } := by
  have hres := C46_resolved h hm hf
  obtain ⟨ds, hw, hc, he, -⟩ := parse_sound h
  obtain ⟨m', hm', hfs, hpk, -⟩ := erase_fields he hm
  obtain ⟨x, hx, rfl⟩ := List.mem_map.mp hm'
  have hf' : f.erase ∈ (bodyMeaning x.2.1 x.2.2 x.1 fun q => position q (messageNames ds)).fields := by
    rw [hfs]; exact List.mem_map_of_mem hf
  obtain ⟨g, hg, hge⟩ := List.mem_map.mp hf'
  have hty : g.typeInfo x.1 (fun q => position q (messageNames ds)) = f.type := congrArg Field.type hge
  obtain ⟨a, b, b', n1, n2, n3⟩ := names_decl hw he
  refine bare_type g x.1 _ _ f hty fun hid => ?_
  obtain ⟨i, target, n, r1, r2, r3, -⟩ := hres hid
  have hpt := hp m hm f hf i target r1 r2
  have hq : f.type.qname ∈ a := by
    rw [← r3, hpt]
    exact n3 target (List.mem_of_getElem? r2) hpt
  simp only [n1, n2]
  exact position_append hq b b'

/-- C66 (partial).  If no message of a package is the type of a field of an accepted file, then its messages, printed
one after the other by the operator of the debug build for messages, are a schema with the same messages, in the same order, with the same fields, types and numbers; packages, options and
the label `optional` are not printed.  Missing from the full statement (that this holds for every accepted file): the other
files, for which it is false, see below. -/
theorem C66_shown_is_schema_partial {N : Nat} {text : Bytes} {t : Tree} (h : parse N text = .ok t)
    (hp : Unpackaged t) :
    ∃ s, t.dump = some s ∧ ∀ N', s.length < N' →
      Accepts N' s { messages := t.messages.map Message.bare, options := [], package := [] } := by
  obtain ⟨s, h1, h2, h3⟩ := shown h
  refine ⟨s, h1, fun N' hN' => ?_⟩
  have hn : ∀ m ∈ t.messages, m.name ∈ messageNames (t.messages.map Message.decl) := by
    intro m hm
    rw [messageNames, located_decls, List.map_map]
    exact List.mem_map.mpr ⟨m, hm, rfl⟩
  have hcons : Consistent (t.messages.map Message.decl) := by
    constructor
    · intro x hx
      rw [located_decls] at hx
      obtain ⟨m, hm, rfl⟩ := List.mem_map.mp hx
      have hv := C45_valid_and_distinct h m hm
      simp only [decl_fields]
      refine ⟨fun g hg => ?_, ?_⟩
      · obtain ⟨f, hf, e⟩ := List.mem_map.mp hg
        have hi := index_decl (hv.1 f hf)
        rw [e] at hi
        rw [hi]; exact hv.1 f hf
      · have : (m.fields.map Field.decl).map (·.index) = m.fields.map (·.index) := by
          rw [List.map_map]
          refine List.map_congr_left fun f hf => ?_
          have hi := index_decl (hv.1 f hf)
          rw [Function.comp, hi]
        rw [this]; exact hv.2
    · intro x hx g hg n hn'
      rw [located_decls] at hx
      obtain ⟨m, hm, rfl⟩ := List.mem_map.mp hx
      simp only [decl_fields] at hg
      obtain ⟨f, hf, rfl⟩ := List.mem_map.mp hg
      have hid : f.type.id = .message := by
        unfold Field.decl at hn'
        simp only at hn'
        split at hn'
        · cases hn'
        · rename_i h; exact h
      have hq : f.type.qname = n := by
        unfold Field.decl at hn'
        simp only [hid] at hn'
        injection hn'
      obtain ⟨i, target, n', h4, h5, h6, -⟩ := C46_resolved h hm hf hid
      have hpt := hp m hm f hf i target h4 h5
      rw [hpt, qualify, if_pos rfl] at h6
      show qualify [] n ∈ _
      rw [qualify, if_pos rfl, ← hq, ← h6]
      exact hn target (List.mem_of_getElem? h5)
  have := C47_accepted h3 hcons h2 hN'
  have e : denote (t.messages.map Message.decl) = { messages := t.messages.map Message.bare, options := [], package := [] } := by
    obtain ⟨e1, e2⟩ := no_package_option t.messages
    rw [denote, e1, e2, located_decls, List.map_map]
    congr 1
    refine List.map_congr_left fun m hm => ?_
    simp only [Function.comp, bodyMeaning, decl_fields, decl_options, Message.bare, List.map_map, Message.mk.injEq, true_and]
    refine ⟨?_, rfl⟩
    refine List.map_congr_left fun f hf => ?_
    have hi := index_decl ((C45_valid_and_distinct h m hm).1 f hf)
    simp only [Function.comp, FieldDecl.meaning, hi]
    have hname : f.decl.name = f.name := rfl
    have hopt : bracketOpts f.decl.options = [] := rfl
    rw [hname, hopt]
    rw [decl_type h hp hm hf]
    rfl
  rw [e] at this
  exact this

/-- Only message types refer to messages. -/
theorem ref_message {N : Nat} {text : Bytes} {t : Tree} (h : parse N text = .ok t) {m : Message} (hm : m ∈ t.messages)
    {f : Field} (hf : f ∈ m.fields) {i : Nat} (hi : f.type.ref = some i) : f.type.id = .message := by
  obtain ⟨ds, hw, hc, he, -⟩ := parse_sound h
  obtain ⟨m', hm', hfs, hpk, -⟩ := erase_fields he hm
  obtain ⟨x, hx, rfl⟩ := List.mem_map.mp hm'
  have hf' : f.erase ∈ (bodyMeaning x.2.1 x.2.2 x.1 fun q => position q (messageNames ds)).fields := by
    rw [hfs]; exact List.mem_map_of_mem hf
  obtain ⟨g, hg, hge⟩ := List.mem_map.mp hf'
  have hty : g.typeInfo x.1 (fun q => position q (messageNames ds)) = f.type := congrArg Field.type hge
  unfold FieldDecl.typeInfo at hty
  split at hty <;> rw [← hty] at hi ⊢
  cases hi

/-- C66 (negation).  If a message of a package is the type of a field, the messages printed one after the other are rejected:
messages are shown without their package, types with it. -/
theorem C66_packages_break {N : Nat} {text : Bytes} {t : Tree} (h : parse N text = .ok t) {m : Message} (hm : m ∈ t.messages)
    {f : Field} (hf : f ∈ m.fields) {i : Nat} {target : Message} (hi : f.type.ref = some i) (hg : t.messages[i]? = some target)
    (hp : target.package ≠ []) :
    ∃ s, t.dump = some s ∧ ∀ N', s.length < N' → ∀ t', parse N' s ≠ .ok t' := by
  have ht := ref_message h hm hf hi
  obtain ⟨s, h1, h2, h3⟩ := shown h
  refine ⟨s, h1, fun N' hN' t' ht' => ?_⟩
  have hc := (C47_accepted_iff h3 h2 hN').mp ⟨t', ht'⟩
  have hx : (([] : Bytes), m.name, m.fields.map fun f => Item.field f.decl) ∈ located [] (t.messages.map Message.decl) := by
    rw [located_decls]; exact List.mem_map_of_mem hm
  have hmem := hc.2 _ hx f.decl (by rw [decl_fields]; exact List.mem_map_of_mem hf) f.type.qname (by simp [Field.decl, ht])
  rw [messageNames, located_decls, List.map_map] at hmem
  obtain ⟨m', hm', hq⟩ := List.mem_map.mp hmem
  obtain ⟨i', target', n, h5, h6, h7, -⟩ := C46_resolved h hm hf ht
  rw [hi] at h5
  injection h5 with h5
  subst h5
  rw [hg] at h6
  injection h6 with h6
  subst h6
  simp only [Function.comp, qualify, if_true] at hq
  have hd := (parsed_decl h m' hm').1.1
  have : 46 ∈ m'.name := by
    rw [hq, ← h7, qualify, if_neg hp]
    exact List.mem_append_right _ List.mem_cons_self
  exact ident_nodot hd this

/-- C66 for the messages, exactly: the messages of an accepted file, printed one after the other, are accepted if and only if no message of a package is the type of a
field.  (When it is, `C66_shown_is_schema_partial` says what it means.) -/
theorem C66_iff {N : Nat} {text : Bytes} {t : Tree} (h : parse N text = .ok t) :
    ∃ s, t.dump = some s ∧ ∀ N', s.length < N' → ((∃ t', parse N' s = .ok t') ↔ Unpackaged t) := by
  obtain ⟨s, h1, -⟩ := shown h
  refine ⟨s, h1, fun N' hN' => ⟨fun ⟨t', ht'⟩ m hm f hf i target hi hg => ?_, fun hp => ?_⟩⟩
  · refine Classical.byContradiction fun hne => ?_
    obtain ⟨s', h1', h2'⟩ := C66_packages_break h hm hf hi hg hne
    rw [h1] at h1'
    injection h1' with h1'
    subst h1'
    exact h2' N' hN' t' ht'
  · obtain ⟨s', h1', h2'⟩ := C66_shown_is_schema_partial h hp
    rw [h1] at h1'
    injection h1' with h1'
    subst h1'
    obtain ⟨t', ht', -⟩ := h2' N' hN'
    exact ⟨t', ht'⟩

/-- The hypothesis of the first is met, also by a file with a package. -/
example : ∃ t, parse 90 b!"message A { repeated A a = 7; } package p; message A { int32 x = 1; }" = .ok t ∧
    Unpackaged t ∧ t.dump = some b!"message A {\nrepeated A a = 7;\n}\n\nmessage A {\nint32 x = 1;\n}\n\n" := by
  let type : TypeInfo := { id := .message, qname := b!"A", ref := some 0, repeated := true, optional := false }
  let field : Field := { type, name := b!"a", index := 7, options := [] }
  let type' : TypeInfo := { id := .scalar .int32, qname := [], ref := none, repeated := false, optional := false }
  let field' : Field := { type := type', name := b!"x", index := 1, options := [] }
  refine ⟨{ messages := [{ name := b!"A", package := [], options := [], fields := [field] },
      { name := b!"A", package := b!"p", options := [], fields := [field'] }], options := [], package := b!"p" },
    by decide +kernel, ?_, by decide +kernel⟩
  intro m hm f hf i target hi hg
  simp only [List.mem_cons, List.not_mem_nil, or_false] at hm
  rcases hm with rfl | rfl
  · simp only [List.mem_cons, List.not_mem_nil, or_false] at hf
    subst hf
    cases hi
    injection hg with hg
    subst hg
    rfl
  · simp only [List.mem_cons, List.not_mem_nil, or_false] at hf
    subst hf
    cases hi

/-- A file without packages. -/
example : ∃ t, parse 60 b!"message A { repeated A a = 7; }" = .ok t ∧ (∀ m ∈ t.messages, m.package = []) ∧
    t.dump = some b!"message A {\nrepeated A a = 7;\n}\n\n" := by
  let type : TypeInfo := { id := .message, qname := b!"A", ref := some 0, repeated := true, optional := false }
  let field : Field := { type, name := b!"a", index := 7, options := [] }
  exact ⟨{ messages := [{ name := b!"A", package := [], options := [], fields := [field] }], options := [], package := [] },
    by decide +kernel, by decide +kernel, by decide +kernel⟩

/-- The schema of the witness: one message with one field of its own type, in a package. -/
def packaged : Tree :=
  let type : TypeInfo := { id := .message, qname := b!"p.A", ref := some 0, repeated := false, optional := false }
  let field : Field := { type, name := b!"a", index := 7, options := [] }
  { messages := [{ name := b!"A", package := b!"p", options := [], fields := [field] }], options := [], package := b!"p" }

theorem C66_is_false : parse 60 b!"package p; message A { A a = 7; }" = .ok packaged ∧
    packaged.dump = some b!"message A {\np.A a = 7;\n}\n\n" ∧
    parse 60 b!"message A {\np.A a = 7;\n}\n\n" = .exc ⟨.unresolved b!"p.A", 0, 0⟩ :=
  ⟨by decide +kernel, by decide +kernel, by decide +kernel⟩

end PG.Proto
