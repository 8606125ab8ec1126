import Verif.Props.Demo
/-
C01, C02, C03, C09, C11: what is written is JSON and is read back.
-/
set_option autoImplicit false
namespace PG

/-- C01.  Any object of any type (message or array), with any parameters, is serialized successfully, and the text
deserialized into a fresh object gives back exactly the object, provided that
* names are usable: labels need no escaping and are distinct (`LabelsOk`, `NamesOk`);
* strings contain no NUL and are UTF-8 if ASCII output is asked for, floating point numbers are finite (`Writable`);
* no null string sits in a container (`NoNulls`);
* everything is expressed in JSON: transient fields are empty, doubles survive six decimals, strings are not null
  (`Faithful`). -/
theorem C01_message_round_trip (t : Ty) (params q : Option Params) (v : t.Den) (hl : t.LabelsOk) (hd : t.NamesOk)
    (hw : t.Writable (fun b => b ≠ 0) (params.getD {}).ensureAscii v) (hn : t.NoNulls v) (h0 : t.isNull v = false)
    (hf : t.Faithful (params.getD {}).serializeNull v) :
    (serialize t params v).ret = true ∧
      ∃ p, deserialize t (serialize t params v).out q t.new = some ⟨true, p, v⟩ := by
  have := round_trip t params q v hl (Ty.NamesOk.dispatch t hd) hw hn h0
  rwa [Ty.norm_faithful _ t v hf] at this

/-- C01 for objects that are not `Faithful`: what comes back is `Ty.norm`, which keeps integers, booleans, bytes and
string contents, rounds floating point numbers to six decimals, and resets transient and omitted fields. -/
theorem C01_round_trip_norm (t : Ty) (params q : Option Params) (v : t.Den) (hl : t.LabelsOk) (hd : t.NamesOk)
    (hw : t.Writable (fun b => b ≠ 0) (params.getD {}).ensureAscii v) (hn : t.NoNulls v) (h0 : t.isNull v = false) :
    (serialize t params v).ret = true ∧
      ∃ p, deserialize t (serialize t params v).out q t.new = some ⟨true, p, t.norm (params.getD {}).serializeNull v⟩ :=
  round_trip t params q v hl (Ty.NamesOk.dispatch t hd) hw hn h0

/-- The hypotheses are met by a message with nested, repeated, bytes, string and numeric fields. -/
example (ascii : Bool) (q : Option Params) : ∃ p, deserialize Demo.person
    (serialize Demo.person (some { ensureAscii := ascii }) Demo.alice).out q Demo.person.new = some ⟨true, p, Demo.alice⟩ :=
  (C01_message_round_trip Demo.person (some { ensureAscii := ascii }) q Demo.alice Demo.person_labels Demo.person_names
    (Demo.alice_writable ascii) Demo.alice_noNulls rfl Demo.alice_faithful).2

/-- `serialize_array` and `deserialize_array` of three strings. -/
example (q : Option Params) : ∃ p, deserialize (.rep .str)
    (serialize (.rep .str) none ([⟨b!"a", false⟩, ⟨[], false⟩, ⟨[0xFF, 34], false⟩] : List StrField)).out q [] =
      some ⟨true, p, ([⟨b!"a", false⟩, ⟨[], false⟩, ⟨[0xFF, 34], false⟩] : List StrField)⟩ :=
  (C01_message_round_trip (.rep .str) none q ([⟨b!"a", false⟩, ⟨[], false⟩, ⟨[0xFF, 34], false⟩] : List StrField)
    (by decide +kernel) (by decide +kernel) (Ty.Writable.mono (fun _ => of_decide_eq_true) _ _
      (Ty.writableB_sound (fun b => decide (b ≠ 0)) _ _ _ (by decide +kernel)))
    (Ty.noNullsB_sound _ _ (by decide +kernel)) rfl (Ty.faithfulB_sound _ _ _ (by decide +kernel))).2

/-- The string reader, standing at the text of a JSON string, delivers its content and goes on behind it. -/
theorem string_read_text {s body rest : Bytes} (h : wide.str body s) (tz : Tz) (v : Bytes)
    (ha : At tz ((c!"\"" :: body ++ [c!"\""]) ++ rest)) : ∃ tz', stringRead tz v = (.ok, tz', s) ∧ At tz' rest := by
  have hj : JVal wide (.str s) (c!"\"" :: body ++ [c!"\""]) := ⟨body, rfl, h⟩
  obtain ⟨h1, h2, h3⟩ := ha.tok (lexTo_scalar hj (rest := rest) trivial rfl)
  refine ⟨tz.next, ?_, h3⟩
  unfold stringRead
  have hne : tz.cur.id = .string := h1
  rw [expect_pos hne]
  simp [hne, h2]

/-- C02.  With `ensure_ascii` off every byte string without NUL is written, and the reader standing at the written text
delivers the same bytes, whatever follows; afterwards the reader stands at what follows. -/
theorem C02_string_round_trip_raw (s : Bytes) (hs : ∀ b ∈ s, b ≠ 0) (e : ErrInfo) (rest : Bytes) :
    ∃ text, stringWrite false s e = (.ok, text, e) ∧
      ∀ (e' : ErrInfo) (v : Bytes), ∃ tz', stringRead (Tz.open' (IStream.open' (text ++ rest)) e') v = (.ok, tz', s) ∧
        ∃ l c, (tz'.cur, tz'.inp) = lex (IStream.skip rest l c) := by
  have h := strBody_lex lexOk_wide (ascii := false) ⟨hs, fun h => by cases h⟩
  refine ⟨c!"\"" :: (strBody false s).1 ++ [c!"\""], by simp [stringWrite, h.1], fun e' v => ?_⟩
  obtain ⟨tz', h1, l, c, h2⟩ := string_read_text h.2 _ v (At.open _ e')
  exact ⟨tz', h1, l, c, h2.symm⟩

/-- Invalid UTF-8, quote, backslash, newline. -/
example : ∀ b ∈ [0xFF, 34, 92, 10, 0x80, 47, 1], b ≠ (0 : Byte) := by decide

/-- NUL does not survive: the condition of C02 is necessary. -/
theorem C02_nul_is_lost : ∃ (text : Bytes) (tz' : Tz), stringWrite false [0] {} = (.ok, text, {}) ∧
    stringRead (Tz.open' (IStream.open' text) {}) [] = (.error, tz', []) := by
  refine ⟨[34, 0, 34], (stringRead (Tz.open' (IStream.open' [34, 0, 34]) {}) []).2.1, by decide +kernel, ?_⟩
  decide +kernel

/-- C03.  With `ensure_ascii` on every UTF-8 string without NUL is written with ASCII characters only, and read back. -/
theorem C03_string_round_trip_ascii (s : Bytes) (hs : ∀ b ∈ s, b ≠ 0) (hu : Utf8 s) (e : ErrInfo) (rest : Bytes) :
    ∃ text, stringWrite true s e = (.ok, text, e) ∧
      ∀ (e' : ErrInfo) (v : Bytes), ∃ tz', stringRead (Tz.open' (IStream.open' (text ++ rest)) e') v = (.ok, tz', s) ∧
        ∃ l c, (tz'.cur, tz'.inp) = lex (IStream.skip rest l c) := by
  have h := strBody_lex lexOk_wide (ascii := true) ⟨hs, fun _ => hu⟩
  refine ⟨c!"\"" :: (strBody true s).1 ++ [c!"\""], by simp [stringWrite, h.1], fun e' v => ?_⟩
  obtain ⟨tz', h1, l, c, h2⟩ := string_read_text h.2 _ v (At.open _ e')
  exact ⟨tz', h1, l, c, h2.symm⟩

/-- "é", "€" and U+1F600 as UTF-8; the last one travels as a surrogate pair. -/
example : Utf8 [0xC3, 0xA9, 0xE2, 0x82, 0xAC, 0xF0, 0x9F, 0x98, 0x80] ∧
    (stringWrite true [0xF0, 0x9F, 0x98, 0x80] {}).2.1 = b!"\"\\ud83d\\ude00\"" :=
  ⟨utf8B_sound (by decide +kernel), by decide +kernel⟩

/-- C09.  A `bytes` field with base64 support is written as the RFC 4648 text of its content, and the reader at that
text appends exactly the content to what the target held. -/
theorem C09_base64_round_trip (v : Bytes) (p : Params) (e : ErrInfo) (rest : Bytes) :
    ∃ text, Ty.write p .bytes v e = (.ok, text, e) ∧ text = c!"\"" :: base64 v ++ [c!"\""] ∧
      ∀ (e' : ErrInfo) (w : Bytes), ∃ tz', bytesRead (Tz.open' (IStream.open' (text ++ rest)) e') w = (.ok, tz', w ++ v) ∧
        tz'.err = e' := by
  refine ⟨c!"\"" :: b64Enc v ++ [c!"\""], rfl, by rw [b64Enc_eq], fun e' w => ?_⟩
  have hj : JVal wide (.str (b64Enc v)) (c!"\"" :: b64Enc v ++ [c!"\""]) :=
    ⟨b64Enc v, rfl, by rw [b64Enc_eq]; exact label_lex lexOk_wide (fun b hb => (base64_raw v b hb).1)⟩
  have ha := At.open ((c!"\"" :: b64Enc v ++ [c!"\""]) ++ rest) e'
  obtain ⟨h1, h2, h3⟩ := ha.tok (lexTo_scalar hj (rest := rest) trivial rfl)
  have hne : (Tz.open' (IStream.open' ((c!"\"" :: b64Enc v ++ [c!"\""]) ++ rest)) e').cur.id = .string := h1
  refine ⟨(Tz.open' (IStream.open' ((c!"\"" :: b64Enc v ++ [c!"\""]) ++ rest)) e').next, ?_, rfl⟩
  unfold bytesRead
  rw [h2, b64Dec_enc, if_neg (by rw [hne]; decide), if_neg (by rw [hne]; decide)]
  rfl

example : ∃ text tz', Ty.write {} .bytes [0, 255, 16, 131] {} = (.ok, text, {}) ∧ text = b!"\"AP8Qgw==\"" ∧
    bytesRead (Tz.open' (IStream.open' text) {}) [7] = (.ok, tz', [7, 0, 255, 16, 131]) :=
  ⟨b!"\"AP8Qgw==\"", (bytesRead (Tz.open' (IStream.open' b!"\"AP8Qgw==\"") {}) [7]).2.1, by decide +kernel, rfl,
    by decide +kernel⟩

/-- C11.  The text is a JSON value by RFC 8259 -- for a message an object whose member names are the labels of persistent
fields, in order -- for every parameter combination, if floating point numbers are finite, strings contain no control
character other than those JSON has a short escape for, and they are UTF-8 when ASCII output is asked for. -/
theorem C11_output_is_json (t : Ty) (params : Option Params) (v : t.Den) (hl : t.LabelsOk)
    (hw : t.Writable rfcOk (params.getD {}).ensureAscii v) :
    ∃ j, JVal rfc j (serialize t params v).out ∧ j = t.toJ (params.getD {}).serializeNull v :=
  ⟨_, (serialize_text lexOk_rfc t params v hl hw).2, rfl⟩

/-- The member names of an object. -/
def JM.names : JM → List Bytes
  | .nil => []
  | .cons k _ t => k :: t.names

theorem Fields.toJ_names (nulls : Bool) : (fs : Fields) → (v : fs.Den) → (fs.toJ nulls v).names.Sublist fs.labels
  | .nil, _ => .slnil
  | .cons f t rest, v => by
    have ih := Fields.toJ_names nulls rest v.2
    unfold Fields.toJ Fields.labels
    cases f.transient with
    | true => exact ih
    | false =>
      simp only [Bool.false_eq_true, if_false]
      split
      · exact ih.cons_cons _
      · exact ih.cons _

/-- C11, second half: a message is written as an object whose names are drawn from the labels of the persistent fields,
in order, each at most once (if they are distinct). -/
theorem C11_names_from_schema (obf : Bool) (fs : Fields) (params : Option Params) (v : fs.Den) (hl : fs.LabelsOk)
    (hw : fs.Writable rfcOk (params.getD {}).ensureAscii v) :
    ∃ ms, JVal rfc (.obj ms) (serialize (.msg obf fs) params v).out ∧ ms.names.Sublist fs.labels :=
  ⟨fs.toJ _ v, (serialize_text lexOk_rfc (.msg obf fs) params v hl hw).2, Fields.toJ_names _ fs v⟩

example (p : Option Params) : ∃ j, JVal rfc j (serialize Demo.person p Demo.alice).out := by
  obtain ⟨j, h, -⟩ := C11_output_is_json Demo.person p Demo.alice Demo.person_labels (Demo.alice_writable_rfc _)
  exact ⟨j, h⟩

end PG
