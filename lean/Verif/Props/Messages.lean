import Verif.Spec.Message
import Verif.Props.Faults
/-
C84: the message of an error says what is missing at the place of the error.
-/
set_option autoImplicit false
namespace PG
open IStream

theorem EndsName.after {ls : List Bytes} (h : EndsName ls) (a : List Bytes) : EndsName (a ++ ls) := by
  obtain ⟨x, k, l, rfl, h⟩ := h
  exact ⟨a ++ x, k, l, by simp, h⟩

theorem Says.after {n : Nat} {m : Bytes} {k : TId} {ls : List Bytes} (h : Says n m k ls) (a : List Bytes) : Says n m k (a ++ ls) := by
  cases h with
  | number h => exact .number h
  | bool h h' => exact .bool h h'
  | string h => exact .string h
  | bytes h => exact .bytes h
  | arrayStart h => exact .arrayStart h
  | array h h' => exact .array h h'
  | objectStart h => exact .objectStart h
  | object h h' => exact .object h h'
  | name h => exact .name h
  | colon h h' => exact .colon (h.after a) h'
  | skippedArray h h' => exact .skippedArray h h'
  | skippedObject h h' => exact .skippedObject h h'
  | skippedName h => exact .skippedName h
  | skippedColon h h' => exact .skippedColon (h.after a) h'
  | skippedValue h => exact .skippedValue h
  | finished h => exact .finished h

/-- The code with its message says something true. -/
abbrev ECode.True (c : ECode) (k : TId) (ls : List Bytes) : Prop := Says c.number c.message k ls

theorem endsName_one {k l : Bytes} (h : ScalarOf (.str k) l) : EndsName [l] := ⟨[], k, l, rfl, h⟩

mutual
theorem SkipCut.says {o : TId} : {c : ECode} → {ls : List Bytes} → SkipCut o c ls → c.True o ls
  | _, _, .stop h => .finished h.symm
  | _, _, .head h _ _ => .skippedValue h
  | _, _, .after _ h => .finished h.symm
  | _, _, .arr h => (SkipElems.says h).after [_]
  | _, _, .obj h => (SkipMembers.says h).after [_]
theorem SkipElems.says {o : TId} : {c : ECode} → {ls : List Bytes} → SkipElems o c ls → c.True o ls
  | _, _, .elem h _ => SkipCut.says h
  | _, _, .close _ _ h1 h2 => .skippedArray h1 h2
  | _, _, .next (a := a) _ h => by simpa using (SkipElems.says h).after (a ++ [b!","])
theorem SkipMembers.says {o : TId} : {c : ECode} → {ls : List Bytes} → SkipMembers o c ls → c.True o ls
  | _, _, .name _ h => .skippedName h
  | _, _, .colon hk h => .skippedColon (endsName_one hk) h
  | _, _, .value (l := l) _ h => (SkipCut.says h).after [l, b!":"]
  | _, _, .close _ _ _ h1 h2 => .skippedObject h1 h2
  | _, _, .next (l := l) (a := a) _ _ h => by simpa using (SkipMembers.says h).after (l :: b!":" :: (a ++ [b!","]))
end

theorem ElemsCut.says {α : Type} {P : J → List Bytes → Prop} {f : J → RC × α} {cut : TId → ECode → List Bytes → Prop}
    (hc : ∀ o c ls, cut o c ls → c.True o ls) {v v' : List α} {o : TId} {c : ECode} {ls : List Bytes}
    (h : ElemsCut P f cut v o c ls v') : c.True o ls := by
  induction h with
  | elem h => exact hc _ _ _ h
  | null => exact .array (by decide) (by decide)
  | close _ _ h1 h2 => exact .array h1 h2
  | @next v v' o c j a ls x _ _ _ ih => simpa using ih.after (a ++ [b!","])

theorem MembersCut.says {α : Type} {P : Bytes → J → List Bytes → Prop} {f : Bytes → J → α → RC × α}
    {cut : Bytes → α → TId → ECode → List Bytes → α → Prop} (hc : ∀ k v o c ls v', cut k v o c ls v' → c.True o ls)
    {v v' : α} {o : TId} {c : ECode} {ls : List Bytes} (h : MembersCut P f cut v o c ls v') : c.True o ls := by
  induction h with
  | name h => exact .name h
  | colon hk h => exact .colon (endsName_one hk) h
  | @value v v' o c k l ls _ h => exact (hc _ _ _ _ _ _ h).after [l, b!":"]
  | last _ _ _ _ h => exact .finished h.symm
  | close _ _ _ _ _ h1 h2 => exact .object h1 h2
  | @next v v1 v' o c rc k l j a ls _ _ _ _ _ ih => simpa using ih.after (l :: b!":" :: (a ++ [b!","]))

theorem Prim.says (p : Prim) {o : TId} (h : o ∉ p.tokens) (ls : List Bytes) : p.complaint.True o ls := by
  cases p with
  | bool => exact .bool (fun h' => h (by rw [h']; simp [Prim.tokens])) (fun h' => h (by rw [h']; simp [Prim.tokens]))
  | int k => exact .number (fun h' => h (by rw [h']; simp [Prim.tokens]))
  | flt k => exact .number (fun h' => h (by rw [h']; simp [Prim.tokens]))

mutual
theorem Cut.says : (t : Ty) → {v v' : t.Den} → {o : TId} → {c : ECode} → {ls : List Bytes} → Cut t v o c ls v' → c.True o ls
  | .num p, _, _, _, _, _, h => by obtain ⟨-, h1, -, rfl, -⟩ := h; exact p.says h1 _
  | .raw p, _, _, _, _, _, h => by obtain ⟨-, h1, -, rfl, -⟩ := h; exact p.says h1 _
  | .str, _, _, _, _, _, h => by obtain ⟨-, h1, -, rfl, -⟩ := h; exact .string h1
  | .bytes, _, _, _, _, _, h => by obtain ⟨-, h1, -, rfl, -⟩ := h; exact .bytes h1
  | .rep t, _, _, _, _, _, h => by
    unfold Cut at h
    rcases h with ⟨-, h1, -, rfl, -⟩ | ⟨inner, rfl, -, h⟩
    · exact .arrayStart h1
    · exact (ElemsCut.says (fun o c ls ⟨x, h⟩ => Cut.says t h) h).after [_]
  | .msg obf fs, _, _, _, _, _, h => by
    unfold Cut at h
    rcases h with ⟨-, h1, -, rfl, -⟩ | ⟨inner, rfl, -, h⟩
    · exact .objectStart h1
    · refine (MembersCut.says (fun k v o c ls v' h => ?_) h).after [_]
      cases hi : indexOf obf fs k with
      | none => rw [hi] at h; exact h.1.says
      | some i => rw [hi] at h; exact CutAt.says fs i h
theorem CutAt.says : (fs : Fields) → (i : Nat) → {v v' : fs.Den} → {o : TId} → {c : ECode} → {ls : List Bytes} →
    CutAt fs i v o c ls v' → c.True o ls
  | .nil, _, _, _, _, _, _, h => by unfold CutAt at h; exact h.1.says
  | .cons f t rest, i, _, _, _, _, _, h => by
    unfold CutAt at h
    by_cases hf : f.transient = true
    · simp only [hf, if_true] at h
      exact CutAt.says rest i h.2
    · simp only [hf] at h
      cases i with
      | zero => exact Cut.says t h.2
      | succ i => exact CutAt.says rest i h.2
end

/-- C84.  The code and the message of a failing call say what is missing at the place of the error; or, for classes with
`bytes` fields, they are about an earlier string whose length is no multiple of four.  (Every failure has a message.)
Missing from the full statement: "end of stream" is also said of characters that are no token. -/
theorem C84_true_partial (t : Ty) (input : Bytes) (p : Params) (v : t.Den) (r : DRes t.Den)
    (h : deserialize t input (some p) v = some r) (hr : r.ret = false) (hc : r.code ≠ some .ok) :
    ∃ k ls pre suf w q, input = pre ++ suf ∧ Upto ls w (clean pre) ∧ Ws w ∧ Ended ls (w ++ clean suf) ∧ Begins k (clean suf) ∧
      r.params = some q ∧
      ((Says q.err.code.number q.err.code.message k ls ∧ (q.err.line, q.err.col) = placeOf k pre) ∨
       (¬ t.NoBytes ∧ q.err.code.number = 5 ∧ q.err.code.message = b!"invalid base64 data" ∧ Masked input q.err)) := by
  obtain ⟨k, c, ls, pre, suf, w, q, h1, h2, h3, h4, h5, h6, h7, h8⟩ := C63_explained t input p v r h hr hc
  refine ⟨k, ls, pre, suf, w, q, h1, h2, h3, h4, h5, h7, ?_⟩
  rcases h8 with ⟨h8, h9⟩ | ⟨h8, h9⟩
  · exact .inl ⟨by rw [h8]; exact Cut.says t h6, h9⟩
  · exact .inr ⟨h8, by rw [h9.1]; rfl, by rw [h9.1]; rfl, h9⟩

/-- C84.  After success, and after a `null` that is read as nothing, there is no message; code 0 and only code 0 is without
a message. -/
theorem C84_silent (t : Ty) (input : Bytes) (p : Params) (v : t.Den) (r : DRes t.Den)
    (h : deserialize t input (some p) v = some r) (hr : r.ret = true) :
    (r.code.map ECode.number, r.code.map ECode.message) = (some 0, some []) := by
  rw [(C21_code_agrees_partial t input p v r h).1 hr]; rfl

/-- C84.  Code and message together determine the case of C63 (`C63_refused_iff` says exactly which texts lead to which
case); there is no error without a message, and only one code has the number 0. -/
theorem C84_distinct (c d : ECode) :
    (c.number = d.number ∧ c.message = d.message ↔ c = d) ∧ (c.number = 0 ↔ c = .ok) ∧ (c.message = [] ↔ c = .ok) := by
  refine ⟨⟨?_, fun h => h ▸ ⟨rfl, rfl⟩⟩, ?_, ?_⟩
  · cases c <;> cases d <;> decide
  · cases c <;> decide
  · cases c <;> decide

/-- The code and the message that reading a text into an empty address leaves. -/
def Demo.said (input : Bytes) : Option (Option (Nat × Bytes × Nat × Nat)) :=
  (deserialize Demo.address input (some {}) Demo.address.new).map fun r =>
    r.params.map fun p => (p.err.code.number, p.err.code.message, p.err.line, p.err.col)

/-- C84 (negation).  "end of stream" is said in the middle of a text: of `@` where the value of an unknown member is
expected, and of `@` after such a value. -/
theorem C84_is_false :
    Demo.said b!"{\"z\":@ 1}" = some (some (1, b!"end of stream", 1, 6)) ∧
    Demo.said b!"{\"z\":1 @}" = some (some (1, b!"end of stream", 1, 8)) ∧
    Begins .none b!"@ 1}" ∧ ¬ Begins .eos b!"@ 1}" := by
  refine ⟨by decide +kernel, by decide +kernel, ⟨fun b t h => by cases h; decide, ?_⟩, ?_⟩
  · rw [if_pos rfl]
    intro k h
    cases k with
    | none => exact h
    | eos => cases h
    | string => obtain ⟨body, s, t, h, -⟩ := h; cases h
    | number => obtain ⟨b, t, h, h'⟩ := h; cases h; revert h'; decide
    | nil => obtain ⟨t, h, -⟩ := h; cases h
    | btrue => obtain ⟨t, h, -⟩ := h; cases h
    | bfalse => obtain ⟨t, h, -⟩ := h; cases h
    | _ => obtain ⟨t, h⟩ := h; cases h
  · rintro ⟨-, h⟩
    rw [if_neg (by decide)] at h
    cases h

/-- The messages, one example each. -/
theorem C84_examples :
    Demo.said b!"{\"number\":\"7\"}" = some (some (4, b!"invalid numeric value", 0, 0)) ∧
    Demo.said b!"{\"street\":7}" = some (some (4, b!"invalid string value", 1, 11)) ∧
    Demo.said b!"[" = some (some (5, b!"objects must start with '{'", 1, 1)) ∧
    Demo.said b!"{\"number\":7]" = some (some (5, b!"invalid JSON object", 1, 12)) ∧
    Demo.said b!"{number:7}" = some (some (6, b!"object key must be string", 1, 2)) ∧
    Demo.said b!"{\"number\" 7}" = some (some (3, b!"field name and value must be separated by ':'", 1, 11)) ∧
    Demo.said b!"{\"z\":[1}" = some (some (1, b!"invalid array", 1, 8)) ∧
    Demo.said b!"{\"z\":{\"a\":1]" = some (some (1, b!"invalid object", 1, 12)) ∧
    Demo.said b!"{\"z\":{1" = some (some (1, b!"expected field name", 1, 7)) ∧
    Demo.said b!"{\"z\":{\"a\" 1" = some (some (1, b!"expected colon", 1, 11)) ∧
    Demo.said b!"{\"z\":]" = some (some (1, b!"invalid value", 1, 6)) ∧
    Demo.said b!"{\"z\":" = some (some (1, b!"end of stream", 1, 6)) ∧
    Demo.said b!"{\"number\":7}" = some (some (0, [], 0, 0)) := by
  refine ⟨?_, ?_, ?_, ?_, ?_, ?_, ?_, ?_, ?_, ?_, ?_, ?_, ?_⟩ <;> decide +kernel

/-- C84, the writer: the only message is about UTF-8, and it is true.  (What is reported to the caller of `serialize` is
another matter, see C12.) -/
theorem C84_writer (s : Bytes) (e : ErrInfo) (he : e.code = .ok) (h : (stringWrite true s e).1 = .error) :
    ((stringWrite true s e).2.2.code.number, (stringWrite true s e).2.2.code.message) = (4, b!"invalid UTF-8 code point") ∧ ¬ Utf8 s := by
  obtain ⟨h1, h2, h3⟩ := C12_string_writer_partial s e he
  by_cases hl : LooseUtf8 s
  · rw [(h2 hl).1] at h; cases h
  · exact ⟨by rw [(h1 hl).2]; rfl, fun hu => hl (h3 hu)⟩

example : (stringWrite true [0x41, 0xFF] {}).1 = .error ∧ (stringWrite true [0x41, 0xFF] {}).2.2.code.message = b!"invalid UTF-8 code point" := by
  decide +kernel

end PG
