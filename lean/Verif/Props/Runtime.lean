import Verif.Proofs.CxxStream
import Verif.Proofs.CxxRecord
import Verif.Proofs.CxxString
import Verif.Proofs.CxxNext
import Verif.Proofs.CxxIgnore
import Verif.Proofs.CxxReveal
import Verif.Proofs.CxxArray
import Verif.Proofs.CxxBase64
import Verif.Props.Demo
/-
C86-C89: the functions of the runtime headers, parsed and executed as C++ (Spec/Cxx, Spec/CxxRun), are the functions of
the model.  The headers are the lines of Model/HeaderTxt.

Calls of other functions of the runtime are resolved by Spec/CxxLib, which gives them the meaning of the model's functions;
each of those is the subject of a theorem here, so that all of them together are about one program.  `n` bounds the number of
iterations of every loop.
-/
set_option autoImplicit false
namespace PG.Cxx
open PG.Gen

/-- The lines `a` to `b` of a header are one function, which does `P`. -/
def Does (lines : List Bytes) (a b : Nat) (P : Fun → Prop) : Prop := ∃ f, Fun.of [] 60 (slice lines a b) = some f ∧ P f

/-! ### C86: the tokenizer -/

/-- C86: `iterator_istream`: `eof`, `peek`, `next` and `skip`; `none` is the overflow of a counter. -/
theorem C86_stream (σ : Bool) :
    Does protogenLines 178 178 (fun f => ∀ n s, f.run (streamLib σ) n [] (Cursor.of s) = some (.bool s.eof, [], Cursor.of s)) ∧
    Does protogenLines 166 170 (fun f => ∀ n s, f.run (streamLib σ) n [] (Cursor.of s) =
      some (.int .i32 (IT.ofByte σ s.peek), [], Cursor.of s)) ∧
    Does protogenLines 171 177 (fun f => ∀ n s, f.run (streamLib σ) n [] (Cursor.of s) =
      s.nextInt.map fun s => (.void, [], Cursor.of s)) ∧
    Does protogenLines 184 192 (fun f => ∀ n s, s.line ≤ intMax → s.rest.length < n → f.run (streamLib σ) n [] (Cursor.of s) =
      (IStream.skipInt s.rest s.line s.col).map fun s => (.void, [], Cursor.of s)) :=
  ⟨⟨_, eofFun_text, eof_runs⟩, ⟨_, peekFun_text, peek_runs⟩, ⟨_, advanceFun_text, advance_runs⟩, ⟨_, skipFun_text, skip_runs⟩⟩

/-- At the last column that can be counted, `next` is undefined; before a line feed it goes to the next line. -/
example : (IStream.mk b!"ab" 1 2147483647).nextInt = none ∧ (IStream.mk b!"a\nb" 1 5).nextInt = some ⟨b!"b", 2, 1⟩ := by decide +kernel

/-- C86: the functions of the tokenizer that make tokens. -/
theorem C86_tokens {V F : Type} (σ : Bool) (ops : Ops V F) :
    Does protogenLines 300 354 (fun f => ∀ n w, w.tz.inp.rest.length < n →
      f.run (runtimeLib σ ops) n [] w = some (.dom (.tok w.tz.next.cur), [], { w with tz := w.tz.next })) ∧
    Does protogenLines 386 401 (fun f => ∀ n w, w.tz.inp.rest.length < n →
      f.run (runtimeLib σ ops) n [] w =
        some (.str (lexIdent w.tz.inp []).1, [], { w with tz := { w.tz with inp := (lexIdent w.tz.inp []).2 } })) ∧
    Does protogenLines 403 449 (fun f => ∀ n w, w.tz.inp.peek = c!"\"" → w.tz.inp.rest.length < n →
      f.run (runtimeLib σ ops) n [] w =
        some (.dom (.tok (parseString w.tz.inp).1), [], { w with tz := { w.tz with inp := (parseString w.tz.inp).2 } })) ∧
    Does protogenLines 522 539 (fun f => ∀ n w, w.tz.inp.rest.length < n →
      f.run (runtimeLib σ ops) n [] w =
        some (.dom (.tok { id := .number, value := (lexNumber w.tz.inp []).1, line := w.tz.inp.line, col := w.tz.inp.col }), [],
          { w with tz := { w.tz with inp := (lexNumber w.tz.inp []).2 } })) :=
  ⟨⟨_, nextFun_text, next_runs⟩, ⟨_, identFun_text, ident_runs⟩, ⟨_, stringFun_text, string_runs⟩, ⟨_, numberFun_text, number_runs⟩⟩

/-- The state of a reader of a text. -/
def worldOf (text : Bytes) : World := { tz := Tz.open' (IStream.open' text) {}, out := [], ascii := false }

/-- In `["\\u00e9\\n", 12]`, after the bracket comes the string, which has no position (C22). -/
example {V F : Type} (ops : Ops V F) : ∃ f, Fun.of [] 60 (slice protogenLines 300 354) = some f ∧
    (f.run (runtimeLib true ops) 20 [] (worldOf b!"[\"\\u00e9\\n\", 12]")).map (·.1) =
      some (.dom (.tok ⟨.string, [195, 169, 10], 0, 0⟩)) := by
  obtain ⟨f, h, hf⟩ := (C86_tokens true ops).1
  refine ⟨f, h, ?_⟩
  rw [hf 20 _ (by decide +kernel), show (worldOf b!"[\"\\u00e9\\n\", 12]").tz.next.cur = ⟨.string, [195, 169, 10], 0, 0⟩ by decide +kernel]
  rfl

/-- C86: `parse_utf8_character`, with the pending surrogate that it is called with (see `C86_lead`). -/
theorem C86_escape {V F : Type} (σ : Bool) (ops : Ops V F) :
    Does protogenLines 451 510 (fun f => ∀ (n : Nat) (value : Bytes) (lead : Nat) (w : World), 4 < n → (lead = 0 ∨ 0xD800 ≤ lead ∧ lead ≤ 0xDBFF) →
      f.run (runtimeLib σ ops) n [.str value, .int .i32 lead] w =
        match (lexHex 4 0 w.tz.inp).1.bind (putCodeUnit value lead) with
        | none => some (.bool false, [.str value, .int .i32 lead], { w with tz := { w.tz with inp := (lexHex 4 0 w.tz.inp).2 } })
        | some q => some (.bool true, [.str q.1, .int .i32 q.2], { w with tz := { w.tz with inp := (lexHex 4 0 w.tz.inp).2 } })) := by
  refine ⟨_, utf8Fun_text, fun n value lead w hn hl => ?_⟩
  rw [utf8_runs n value lead w hn hl]
  cases (lexHex 4 0 w.tz.inp).1 with
  | none => rfl
  | some cp => cases h : putCodeUnit value lead cp <;> simp only [Option.bind_some, h]

/-- C86: the pending surrogate is always one. -/
theorem C86_lead {value : Bytes} {lead cp : Nat} {q : Bytes × Nat} (h : putCodeUnit value lead cp = some q) :
    q.2 = 0 ∨ 0xD800 ≤ q.2 ∧ q.2 ≤ 0xDBFF := lead_ok h

/-- A pair of surrogates: the first is kept, the second completes it. -/
example : putCodeUnit b!"x" 0 0xD83D = some (b!"x", 0xD83D) ∧ putCodeUnit b!"x" 0xD83D 0xDE00 = some (b!"x" ++ [240, 159, 152, 128], 0) ∧
    putCodeUnit b!"x" 0 0xDE00 = none := by decide +kernel

/-- C86: `expect`, and the record of the error. -/
theorem C86_expect {V F : Type} (σ : Bool) (ops : Ops V F) :
    Does protogenLines 356 364 (fun f => ∀ n (t : TId) w, f.run (runtimeLib σ ops) n [.int .i32 (tidNumber t)] w =
      some (.bool (w.tz.expect t).1, [.int .i32 (tidNumber t)], { w with tz := (w.tz.expect t).2 })) ∧
    Does protogenLines 365 374 (fun f => ∀ n tz (c : ECode), f.run (recordLib σ) n [.int .i32 c.number, .str c.message] (Desk.of tz) =
      some (.int .i32 1, [.int .i32 c.number, .str c.message], Desk.of (tz.error c).2)) ∧
    Does jsonLines 21 29 (fun f => ∀ n (e : ErrInfo) (c : ECode) s,
      f.run (recordLib σ) n [.dom (.record (.of e)), .int .i32 c.number, .str c.message] s =
        some (.int .i32 1, [.dom (.record (.of (setError e c).2)), .int .i32 c.number, .str c.message], s)) :=
  ⟨⟨_, expectFun_text, expect_runs⟩, ⟨_, errorFun_text, error_runs⟩, ⟨_, setErrorFun_text, setError_runs⟩⟩

/-- The first error is kept. -/
example (tz : Tz) (h : tz.err.code = .ok) : ((tz.error .invalidNumber).2.error .invalidName).2.err.code = .invalidNumber := by
  simp [Tz.error, h]

/-- C86: the enumerations, and the numbers that the library gives to their enumerators; `token_id` and `error_code` have no
two enumerators with the same number. -/
theorem C86_enums :
    enumOf 20 (slice protogenLines 255 259) = some tokenIds ∧ enumOf 20 (slice protogenLines 35 45) = some errorCodes ∧
    enumOf 20 (slice protogenLines 47 52) = some parseErrors ∧
    (∀ t u, tidNumber t = tidNumber u → t = u) ∧ (∀ c : ECode, ecodeOf c.number c.message = some c) := by
  refine ⟨by decide +kernel, by decide +kernel, by decide +kernel, ?_, ?_⟩
  · intro t u h
    cases t <;> cases u <;> first | rfl | exact absurd h (by decide)
  · intro c
    cases c <;> decide +kernel

/-! ### C87: skipping values -/

/-- C87: `ignore_array`, `ignore_object` and `ignore_value`. -/
theorem C87_ignore {V F : Type} (σ : Bool) (ops : Ops V F) :
    Does protogenLines 541 555 (fun f => ∀ n w, enough w.tz ≤ n → f.run (runtimeLib σ ops) n [] w =
      (rcNumber (skipArray w.tz).1).map fun k : Nat => (.int .i32 (k : Int), [], { w with tz := (skipArray w.tz).2 })) ∧
    Does protogenLines 557 575 (fun f => ∀ n w, enough w.tz ≤ n → f.run (runtimeLib σ ops) n [] w =
      (rcNumber (skipObject w.tz).1).map fun k : Nat => (.int .i32 (k : Int), [], { w with tz := (skipObject w.tz).2 })) ∧
    Does protogenLines 577 602 (fun f => ∀ n w, f.run (runtimeLib σ ops) n [] w =
      (rcNumber (skipValue w.tz).1).map fun k : Nat => (.int .i32 (k : Int), [], { w with tz := (skipValue w.tz).2 })) :=
  ⟨⟨_, ignoreArrayFun_text, ignoreArray_runs⟩, ⟨_, ignoreObjectFun_text, ignoreObject_runs⟩, ⟨_, ignoreValueFun_text, ignoreValue_runs⟩⟩

/-- C87: those are the functions of the model with any fuel from `enough` on. -/
theorem C87_enough (tz : Tz) (n : Nat) (h : enough tz ≤ n) : ignoreValue n tz = skipValue tz ∧ (skipValue tz).1 ≠ .fuel := by
  have hm := m_enough tz
  have hf := ignoreValue_fin (enough tz) tz (by unfold enough at *; omega)
  obtain ⟨k, rfl⟩ : ∃ k, n = enough tz + k := ⟨n - enough tz, by omega⟩
  exact ⟨ignoreValue_mono _ k tz hf.1, hf.1⟩

/-- A value is skipped, whatever it contains; what follows it is the current token. -/
example : (skipValue (worldOf b!"{\"a\":[1,{}],\"b\":null} 7").tz).1 = .ok ∧
    (skipValue (worldOf b!"{\"a\":[1,{}],\"b\":null} 7").tz).2.cur.value = b!"7" := by decide +kernel

/-! ### C88: readers and writers -/

/-- What the templates are given for the arithmetic types: `field<T>` over `T`. -/
def numOps (p : Prim) (parse : Bytes → p.Den) : Ops p.Den (NumField p) where
  new := p.zero
  zero := p.zero
  parse := parse
  text := p.text
  read := p.read
  write := fun x e => (.ok, p.text x, e)
  readField := fun _ tz v => (.nil, tz, v)
  empty := NumField.empty
  setEmpty := fun f b => { f with empty := b }
  assign := NumField.assignT
  assignStr := fun f _ => f
  get := NumField.get
  str := fun _ => []

/-- For `string_field`. -/
def strOps : Ops Unit StrField where
  new := ()
  zero := ()
  parse := fun _ => ()
  text := fun _ => []
  read := fun tz v => (.nil, tz, v)
  write := fun _ e => (.ok, [], e)
  readField := fun _ tz v => (.nil, tz, v)
  empty := StrField.empty
  setEmpty := StrField.setEmpty
  assign := fun f _ => f
  assignStr := StrField.assignT
  get := fun _ => ()
  str := StrField.value

/-- For a type of elements or of objects; `rf` is its `read_field`. -/
def tyOps (p : Params) (t : Ty) (n : Nat) (rf : Bytes → Tz → t.Den → Res t.Den) : Ops t.Den Unit where
  new := t.new
  zero := t.new
  parse := fun _ => t.new
  text := fun _ => []
  read := t.read n
  write := t.write p
  readField := rf
  empty := fun _ => true
  setEmpty := fun f _ => f
  assign := fun f _ => f
  assignStr := fun f _ => f
  get := fun _ => t.new
  str := fun _ => []

/-- C88: the readers of integers and floating point numbers, `string_to_number` being those of the model. -/
theorem C88_numbers (σ : Bool) (p : Params) :
    (∀ k, Does numberLines 145 154 fun f => ∀ n v w, f.run (runtimeLib σ (numOps (.int k) (intOfText k))) n [.dom .ctx, .dom (.val v)] w =
      readAs ((Ty.raw (.int k)).read n w.tz v) (fun x => .dom (.val x)) w) ∧
    (∀ k, Does numberLines 145 154 fun f => ∀ n v w, f.run (runtimeLib σ (numOps (.flt k) (fltOfText k))) n [.dom .ctx, .dom (.val v)] w =
      readAs ((Ty.raw (.flt k)).read n w.tz v) (fun x => .dom (.val x)) w) ∧
    (∀ q parse, Does numberLines 155 159 fun f => ∀ n v w, f.run (runtimeLib σ (numOps q parse)) n [.dom .ctx, .dom (.val v)] w =
      wroteAs ((Ty.raw q).write p v w.tz.err) (.dom (.val v)) w) := by
  refine ⟨fun k => ⟨_, readNumberFun_text, fun n v w => ?_⟩, fun k => ⟨_, readNumberFun_text, fun n v w => ?_⟩,
    fun q parse => ⟨_, writeNumberFun_text, fun n v w => ?_⟩⟩
  · exact readNumber_runs n v w
  · exact readNumber_runs n v w
  · exact writeNumber_runs n v w

/-- C88: `bool`. -/
theorem C88_bool {V F : Type} (σ : Bool) (ops : Ops V F) (p : Params) :
    Does numberLines 169 178 (fun f => ∀ n (v : Bool) w, f.run (runtimeLib σ ops) n [.dom .ctx, .bool v] w =
      readAs ((Ty.raw .bool).read n w.tz v) (fun x : Bool => .bool x) w) ∧
    Does numberLines 179 183 (fun f => ∀ n (v : Bool) w, f.run (runtimeLib σ ops) n [.dom .ctx, .bool v] w =
      wroteAs ((Ty.raw .bool).write p v w.tz.err) (.bool v) w) :=
  ⟨⟨_, readBoolFun_text, readBool_runs⟩, ⟨_, writeBoolFun_text, writeBool_runs⟩⟩

/-- C88: `field<T>` and `string_field`. -/
theorem C88_fields (σ : Bool) (p : Params) :
    (∀ q parse, Does numberLines 117 125 fun f => ∀ n v w, f.run (runtimeLib σ (numOps q parse)) n [.dom .ctx, .dom (.fld v)] w =
      readAs ((Ty.num q).read n w.tz v) (fun x => .dom (.fld x)) w) ∧
    (∀ q parse, Does numberLines 126 135 fun f => ∀ n v w, f.run (runtimeLib σ (numOps q parse)) n [.dom .ctx, .dom (.fld v)] w =
      wroteAs ((Ty.num q).write p v w.tz.err) (.dom (.fld v)) w) ∧
    (Does stringLines 157 165 fun f => ∀ n v w, f.run (runtimeLib σ strOps) n [.dom .ctx, .dom (.fld v)] w =
      readAs (Ty.str.read n w.tz v) (fun x => .dom (.fld x)) w) ∧
    (Does stringLines 166 174 fun f => ∀ n v w, w.ascii = p.ensureAscii → f.run (runtimeLib σ strOps) n [.dom .ctx, .dom (.fld v)] w =
      wroteAs (Ty.str.write p v w.tz.err) (.dom (.fld v)) w) := by
  refine ⟨fun q parse => ⟨_, readFieldFun_text, fun n v w => ?_⟩, fun q parse => ⟨_, writeFieldFun_text, fun n v w => ?_⟩,
    ⟨_, readStrFieldFun_text, fun n v w => ?_⟩, ⟨_, writeStrFieldFun_text, fun n v w hw => ?_⟩⟩
  · exact readField_runs n v w
  · exact writeField_runs n v w
  · exact readStrField_runs n v w
  · rw [writeStrField_runs n v w, hw]
    rfl

/-- C88: `std::string`, and the escape `\uXXXX`. -/
theorem C88_strings {V F : Type} (σ : Bool) (ops : Ops V F) :
    Does stringLines 50 58 (fun f => ∀ n (v : Bytes) w, f.run (runtimeLib σ ops) n [.dom .ctx, .str v] w =
      readAs (stringRead w.tz v) (fun s => .str s) w) ∧
    Does stringLines 59 147 (fun f => ∀ n (s : Bytes) w, s.length < 2 ^ 64 → s.length < n → f.run (runtimeLib σ ops) n [.dom .ctx, .str s] w =
      wroteAs (stringWrite w.ascii s w.tz.err) (.str s) w) ∧
    Does stringLines 40 45 (fun f => ∀ n (cp : Nat) w, f.run (runtimeLib σ ops) n [.dom .osPtr, .int .u32 (cp : Int)] w =
      some (.void, [.dom .osPtr, .int .u32 (cp : Int)], { w with out := w.out ++ escU cp })) :=
  ⟨⟨_, readStringFun_text, readString_runs⟩, ⟨_, writeStringFun_text, writeString_runs⟩, ⟨_, escapeFun_text, escape_runs⟩⟩

/-- C88: `std::vector<uint8_t>`. -/
theorem C88_bytes {V F : Type} (σ : Bool) (ops : Ops V F) (p : Params) :
    Does base64Lines 60 101 (fun f => ∀ n (v : Bytes) w, w.tz.cur.value.length + 5 ≤ n → f.run (runtimeLib σ ops) n [.dom .ctx, .arr (octets v)] w =
      readAs (Ty.bytes.read n w.tz v) (fun v => .arr (octets v)) w) ∧
    Does base64Lines 24 59 (fun f => ∀ n (s : Bytes) w, s.length + 2 < 2 ^ 64 → s.length < n → f.run (runtimeLib σ ops) n [.dom .ctx, .arr (octets s)] w =
      wroteAs (Ty.bytes.write p s w.tz.err) (.arr (octets s)) w) ∧
    Does base64Lines 14 23 (fun f => ∀ n (b : Byte) w, f.run (runtimeLib σ ops) n [.int .i32 (IT.ofByte σ b)] w =
      some (.int .i32 (b64Int b : Nat), [.int .i32 (IT.ofByte σ b)], w)) :=
  ⟨⟨_, readBytesFun_text, readBytes_runs⟩, ⟨_, writeBytesFun_text, writeBytes_runs⟩, ⟨_, b64IntFun_text, b64Int_runs⟩⟩

/-- `-_8=` is not what the alphabet of the decoder is for; `+/8=` is. -/
example : (Ty.bytes.read 20 (worldOf b!"\"+/8=\"").tz []).2.2 = [251, 255] ∧
    (Ty.bytes.write {} [251, 255] {}).2.1 = b!"\"+/8=\"" := by decide +kernel

/-- Writers end. -/
theorem write_ends (p : Params) : (t : Ty) → (x : t.Den) → (e : ErrInfo) → (t.write p x e).1 ≠ .fuel := by
  intro t x e
  cases t with
  | str =>
    simp only [Ty.write]
    split
    · simp
    · unfold stringWrite
      simp only
      split
      · simp
      · unfold setError; split <;> simp
  | num q => simp only [Ty.write]; split <;> simp
  | raw q => simp [Ty.write]
  | bytes => simp [Ty.write]
  | rep t => simp [Ty.write]
  | msg o fs => simp [Ty.write]

/-- C88: the containers. -/
theorem C88_arrays (σ : Bool) (p : Params) (t : Ty) (m : Nat) (rf : Bytes → Tz → t.Den → Res t.Den) :
    (Does arrayLines 38 61 fun f => ∀ (v : List t.Den) w, f.run (runtimeLib σ (tyOps p t m rf)) m [.dom .ctx, .arr (v.map fun x => .dom (.val x))] w =
      readAs ((Ty.rep t).read m w.tz v) (fun v : List t.Den => .arr (v.map fun x => .dom (.val x))) w) ∧
    (Does arrayLines 62 73 fun f => ∀ n (v : List t.Den) w, v.length < 2 ^ 64 → v.length < n →
      f.run (runtimeLib σ (tyOps p t m rf)) n [.dom .ctx, .arr (v.map fun x => .dom (.val x))] w =
        wroteAs ((Ty.rep t).write p v w.tz.err) (.arr (v.map fun x => .dom (.val x))) w) := by
  refine ⟨⟨_, readArrayFun_text, fun v w => ?_⟩, ⟨_, writeArrayFun_text, fun n v w h1 h2 => ?_⟩⟩
  · exact readArray_runs m v w
  · exact writeArray_runs (fun x e => write_ends p t x e) n v w h1 h2

/-- `read_field` of a class: `index`, then the `switch` (C85). -/
def readFieldOf (obf : Bool) (fs : Fields) (n : Nat) (name : Bytes) (tz : Tz) (v : (Ty.msg obf fs).Den) : Res (Ty.msg obf fs).Den :=
  match indexOf obf fs name with
  | none => (.nil, tz, v)
  | some i => fs.readAt i n tz v

/-- C88: `read_object`. -/
theorem C88_objects (σ : Bool) (p : Params) (obf : Bool) (fs : Fields) :
    Does jsonLines 34 61 fun f => ∀ n (v : (Ty.msg obf fs).Den) w, enough w.tz ≤ n →
      f.run (runtimeLib σ (tyOps p (.msg obf fs) n (readFieldOf obf fs n))) n [.dom .ctx, .dom (.val v)] w =
        readAs ((Ty.msg obf fs).read n w.tz v) (fun v => .dom (.val v)) w := by
  refine ⟨_, readObjectFun_text, fun n v w hn => ?_⟩
  exact readObject_runs (ops := tyOps p (.msg obf fs) n (readFieldOf obf fs n)) (fun name tz v => by
    show (readFieldOf obf fs n name tz v).2.1.m ≤ tz.m
    unfold readFieldOf
    split
    · exact Nat.le_refl _
    · next i _ => exact (Fields.readAt_sim (inv_m tz.m).sim fs i n ⟨rfl, Nat.le_refl _⟩ v).2.1.2) n w v hn

/-- An address, read by the text of `read_object`; the unknown name is skipped. -/
example (σ : Bool) : ∃ f, Fun.of [] 60 (slice jsonLines 34 61) = some f ∧
    f.run (runtimeLib σ (tyOps {} Demo.address 80 (readFieldOf false (.cons (Demo.fld b!"number") (.num (.int .i32)) (.cons (Demo.fld b!"street") .str .nil)) 80)))
        80 [.dom .ctx, .dom (.val Demo.address.new)] (worldOf b!"{\"x\":[1],\"number\":7}") =
      readAs (Demo.address.read 80 (worldOf b!"{\"x\":[1],\"number\":7}").tz Demo.address.new) (fun v => .dom (.val v))
        (worldOf b!"{\"x\":[1],\"number\":7}") ∧
    (Demo.address.read 80 (worldOf b!"{\"x\":[1],\"number\":7}").tz Demo.address.new).1 = .ok ∧
    CInt.val (k := .i32) (Demo.address.read 80 (worldOf b!"{\"x\":[1],\"number\":7}").tz Demo.address.new).2.2.1.value = 7 := by
  obtain ⟨f, h, hf⟩ := C88_objects σ {} false (.cons (Demo.fld b!"number") (.num (.int .i32)) (.cons (Demo.fld b!"street") .str .nil))
  exact ⟨f, h, hf 80 _ _ (by decide +kernel), by decide +kernel, by decide +kernel⟩

/-! ### C89: obfuscated names -/

/-- C89: `rol` for `uint8_t`, and `reveal`. -/
theorem C89_reveal {V F : Type} (σ : Bool) (ops : Ops V F) :
    Does protogenLines 611 615 (fun f => ∀ (n v c : Nat) w, v < 256 → c < 8 → f.run (runtimeLib σ ops) n [.int .u8 v, .int .i32 c] w =
      some (.int .u8 (rol8 v c), [.int .u8 v, .int .i32 c], w)) ∧
    Does protogenLines 617 625 (fun f => ∀ n (s : Bytes) w, s.length < n → s.length < 2 ^ 64 → f.run (runtimeLib σ ops) n [.str s] w =
      some (.str (reveal s), [.str s], w)) :=
  ⟨⟨_, rolFun_text, fun n v c w hv hc => rol_runs n v c hv hc w⟩, ⟨_, revealFun_text, reveal_runs⟩⟩

/-- A name and what it is revealed as. -/
example : reveal (reveal b!"name") = b!"name" ∧ reveal b!"name" ≠ b!"name" := by decide +kernel

end PG.Cxx
