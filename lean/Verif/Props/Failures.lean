import Verif.Proofs.Near
import Verif.Props.RoundTrip
import Verif.Props.Members
import Verif.Props.Objects
/-
C10 (malformed base64), C12 (serialize reports failures), C16 (null and serialize_null): what the code does instead.
-/
set_option autoImplicit false
namespace PG

/-! ### C10 -/

/-- C10 is false for every text: a string, whatever it contains, is accepted by a bytes field, and so the call returns
true (here for a message with a single bytes field; `member` shows the general case). -/
theorem C10_never_rejected (obf : Bool) (f : FInfo) (hf : f.transient = false) (hk : KeysMatch obf (.cons f .bytes .nil))
    (s : Bytes) (d : Bytes) (hd : DocText (.obj (.cons f.wlabel (.str s) .nil)) d) (p : Option Params) (v : Bytes) :
    outcome (deserialize (.msg obf (.cons f .bytes .nil)) d p (v, ())) = some (true, (v ++ (b64Dec s).1, ())) := by
  have hlab : (Fields.cons f .bytes .nil).labels = [f.wlabel] := by simp [Fields.labels, hf]
  have hi : indexOf obf (.cons f .bytes .nil) f.wlabel = some 0 :=
    dispatches_of hk (by rw [hlab]; simp) 0 f.wlabel (by rw [hlab]; rfl)
  have hm : (Ty.msg obf (.cons f .bytes .nil)).absorb (.obj (.cons f.wlabel (.str s) .nil)) (v, ()) =
      (.ok, (v ++ (b64Dec s).1, ())) := by
    simp only [Ty.absorb, absorbMembers, hi, Fields.absorbAt, hf]
    rfl
  rw [doc_outcome (.msg obf (.cons f .bytes .nil)) p (v, ()) hd, hm]
  rfl

/-- `message Blob { bytes data = 1; }` -/
def Demo.blob : Ty := .msg false (.cons (Demo.fld b!"data") .bytes .nil)
def Demo.blobOf (bs : Bytes) : Demo.blob.Den := (bs, ())

/-- C10 is false: a text of the wrong length and a text with foreign characters are accepted, and no error is left. -/
theorem C10_malformed_accepted :
    (deserialize Demo.blob b!"{\"data\":\"AAECA\"}" (some {}) Demo.blob.new).map (fun r => (r.ret, r.params, r.obj)) =
      some (true, some {}, Demo.blobOf [0, 1, 2]) ∧
    (deserialize Demo.blob b!"{\"data\":\"????\"}" (some {}) Demo.blob.new).map (fun r => (r.ret, r.params, r.obj)) =
      some (true, some {}, Demo.blobOf [0, 0, 0]) := by decide +kernel

/-- C10, exactly what a bytes field makes of a string, whatever it contains: the characters before the first NUL are
decoded leniently by RFC 4648 -- a foreign character counts as zero, an incomplete group at the end is dropped -- and
appended; an incomplete group is recorded as an error, but not reported. -/
theorem C10_decoded (tz : Tz) (v : Bytes) (h : tz.cur.id = .string) (s : Bytes) (hs : tz.cur.value.takeWhile (· != 0) = s) :
    (bytesRead tz v).1 = .ok ∧ (bytesRead tz v).2.2 = v ++ unbase64 s ∧
    (bytesRead tz v).2.1 = if s.length % 4 = 0 then tz.next else (tz.next.error .invalidBase64).2 := by
  unfold bytesRead
  rw [h, b64Dec_eq, hs]
  simp only [reduceCtorEq, if_false, ne_eq, not_true_eq_false, decide_not, Bool.not_eq_true', decide_eq_false_iff_not]
  by_cases hl : s.length % 4 = 0
  · simp [hl]
  · simp [hl]

/-- A text of the RFC, one with padding in the middle, one with foreign characters, one that is cut off. -/
example : unbase64 b!"AAEC" = [0, 1, 2] ∧ unbase64 b!"AA==/w==" = [0, 255] ∧ unbase64 b!"A?EC" = [0, 1, 2] ∧
    unbase64 b!"AAECA" = [0, 1, 2] := by decide +kernel

theorem b64Dec_length (s : Bytes) (h : ∀ b ∈ s, b ≠ 0) : ((b64Dec s).2 = true ↔ s.length % 4 ≠ 0) := by
  have e : s.takeWhile (· != 0) = s := by
    induction s with
    | nil => rfl
    | cons b t ih =>
      rw [List.takeWhile_cons_of_pos (by simpa using h b (by simp)), ih (fun x hx => h x (by simp [hx]))]
  rw [b64Dec_eq, e]
  simp

/-- C10, what is left of it: a wrong length (not a multiple of four) is noticed by the reader, which records
PGERR_INVALID_OBJECT in the context -- and returns PGR_OK, so that the record is dropped unless a later error makes the
call fail.  Missing from the full statement: that the call fails; foreign characters. -/
theorem C10_length_noticed_partial (tz : Tz) (v : Bytes) (h : tz.cur.id = .string) (h0 : ∀ b ∈ tz.cur.value, b ≠ 0)
    (he : tz.err.code = .ok) :
    (bytesRead tz v).1 = .ok ∧
    ((bytesRead tz v).2.1.err.code = .invalidBase64 ↔ tz.cur.value.length % 4 ≠ 0) := by
  unfold bytesRead
  rw [h]
  simp only [reduceCtorEq, if_false, ne_eq, not_true_eq_false, true_and]
  have hl := b64Dec_length tz.cur.value h0
  have hn : tz.next.err.code = .ok := he
  cases hb : (b64Dec tz.cur.value).2 with
  | true =>
    rw [hb] at hl
    simp only [if_true]
    have hl := hl.mp rfl
    simp [Tz.error, hn, hl]
  | false =>
    rw [hb] at hl
    simp only [Bool.false_eq_true, if_false, hn]
    constructor
    · intro h; cases h
    · intro h; exact absurd (hl.mpr h) (by simp)

example : (bytesRead (Tz.open' (IStream.open' b!"\"AAECA\"") {}) []).2.1.err.code = .invalidBase64 := by decide +kernel

/-! ### C12 -/

/-- C12 is false, always: `serialize` of a message or an array returns true and leaves no error, whatever the object
contains and whatever the parameters. -/
theorem C12_always_true (t : Ty) (h : (∃ obf fs, t = .msg obf fs) ∨ (∃ u, t = .rep u)) (params : Option Params) (v : t.Den) :
    (serialize t params v).ret = true ∧ ∀ q, (serialize t params v).params = some q → q.err = {} := by
  have hr : (t.write (ctxParams params) v (ctxParams params).err).1 = .ok := by
    rcases h with ⟨obf, fs, rfl⟩ | ⟨u, rfl⟩ <;> rfl
  refine ⟨by simp only [serialize, hr]; rfl, fun q hq => ?_⟩
  simp only [serialize, hr, paramsAfter] at hq
  cases params with
  | none => cases hq
  | some p => simp only [decide_true, if_true, Option.some.injEq] at hq; rw [← hq]

/-- C12: the witness.  A string that is not UTF-8 under `ensure_ascii`: true, no error, and a text that is not JSON (the
string is not closed). -/
theorem C12_failure_hidden :
    serialize Demo.address (some { ensureAscii := true }) (Demo.addr 7 [0x41, 0xFF]) =
      ⟨true, some { ensureAscii := true }, b!"{\"number\":7,\"street\":\"A}"⟩ := by decide +kernel

/-- What the string writer accepts in ASCII mode: sequences with the right lead and continuation bytes.  Overlong forms
and encoded surrogates are included, so this is weaker than UTF-8. -/
inductive LooseUtf8 : Bytes → Prop
  | nil : LooseUtf8 []
  | one {a t} : a ≤ 0x7F → LooseUtf8 t → LooseUtf8 (a :: t)
  | two {a b t} : 0xC0 ≤ a → a ≤ 0xDF → isCont b = true → LooseUtf8 t → LooseUtf8 (a :: b :: t)
  | three {a b c t} : 0xE0 ≤ a → a ≤ 0xEF → isCont b = true → isCont c = true → LooseUtf8 t → LooseUtf8 (a :: b :: c :: t)
  | four {a b c d t} : 0xF0 ≤ a → a ≤ 0xF4 → isCont b = true → isCont c = true → isCont d = true → LooseUtf8 t →
      LooseUtf8 (a :: b :: c :: d :: t)

theorem strBody_loose (s : Bytes) : (strBody true s).2 = true ↔ LooseUtf8 s := by
  induction hn : s.length using Nat.strongRecOn generalizing s with
  | ind n ih =>
    cases s with
    | nil => simp [strBody, LooseUtf8.nil]
    | cons a t =>
      rw [strBody.eq_def]
      simp only
      by_cases h1 : a ≤ 0x7F
      · rw [if_pos h1]
        simp only
        rw [ih t.length (by rw [← hn]; simp) t rfl]
        constructor
        · exact .one h1
        · intro h
          cases h with
          | one _ h => exact h
          | two h2 => exact absurd h1 (by rw [UInt8.not_le]; exact UInt8.lt_of_lt_of_le (by decide) h2)
          | three h2 => exact absurd h1 (by rw [UInt8.not_le]; exact UInt8.lt_of_lt_of_le (by decide) h2)
          | four h2 => exact absurd h1 (by rw [UInt8.not_le]; exact UInt8.lt_of_lt_of_le (by decide) h2)
      · rw [if_neg h1]
        simp only [Bool.not_true, Bool.false_eq_true, if_false]
        cases t with
        | nil =>
          simp only [Bool.false_eq_true, false_iff]
          intro h; cases h with
          | one h => exact h1 h
        | cons b t =>
          simp only
          by_cases h2 : 0xC0 ≤ a && a ≤ 0xDF && isCont b
          · rw [if_pos h2]
            simp only
            rw [ih t.length (by rw [← hn]; simp; omega) t rfl]
            simp only [Bool.and_eq_true, decide_eq_true_eq] at h2
            constructor
            · exact .two h2.1.1 h2.1.2 h2.2
            · intro h
              cases h with
              | one h => exact absurd h h1
              | two _ _ _ h => exact h
              | three h => exact absurd (UInt8.le_trans h h2.1.2) (by decide)
              | four h => exact absurd (UInt8.le_trans h h2.1.2) (by decide)
          · rw [if_neg h2]
            simp only [Bool.and_eq_true, decide_eq_true_eq] at h2
            cases t with
            | nil =>
              simp only [Bool.false_eq_true, false_iff]
              intro h; cases h with
              | one h => exact h1 h
              | two x y z => exact h2 ⟨⟨x, y⟩, z⟩
            | cons c t =>
              simp only
              by_cases h3 : 0xE0 ≤ a && a ≤ 0xEF && isCont b && isCont c
              · rw [if_pos h3]
                simp only
                rw [ih t.length (by rw [← hn]; simp; omega) t rfl]
                simp only [Bool.and_eq_true, decide_eq_true_eq] at h3
                constructor
                · exact .three h3.1.1.1 h3.1.1.2 h3.1.2 h3.2
                · intro h
                  cases h with
                  | one h => exact absurd h h1
                  | two x y z => exact absurd ⟨⟨x, y⟩, z⟩ h2
                  | three _ _ _ _ h => exact h
                  | four h => exact absurd (UInt8.le_trans h h3.1.1.2) (by decide)
              · rw [if_neg h3]
                simp only [Bool.and_eq_true, decide_eq_true_eq] at h3
                cases t with
                | nil =>
                  simp only [Bool.false_eq_true, false_iff]
                  intro h; cases h with
                  | one h => exact h1 h
                  | two x y z => exact h2 ⟨⟨x, y⟩, z⟩
                  | three x y z w => exact h3 ⟨⟨⟨x, y⟩, z⟩, w⟩
                | cons d t =>
                  simp only
                  by_cases h4 : 0xF0 ≤ a && a ≤ 0xF4 && isCont b && isCont c && isCont d
                  · rw [if_pos h4]
                    simp only
                    rw [ih t.length (by rw [← hn]; simp; omega) t rfl]
                    simp only [Bool.and_eq_true, decide_eq_true_eq] at h4
                    constructor
                    · exact .four h4.1.1.1.1 h4.1.1.1.2 h4.1.1.2 h4.1.2 h4.2
                    · intro h
                      cases h with
                      | one h => exact absurd h h1
                      | two x y z => exact absurd ⟨⟨x, y⟩, z⟩ h2
                      | three x y z w => exact absurd ⟨⟨⟨x, y⟩, z⟩, w⟩ h3
                      | four _ _ _ _ _ h => exact h
                  · rw [if_neg h4]
                    simp only [Bool.and_eq_true, decide_eq_true_eq] at h4
                    simp only [Bool.false_eq_true, false_iff]
                    intro h; cases h with
                    | one h => exact h1 h
                    | two x y z => exact h2 ⟨⟨x, y⟩, z⟩
                    | three x y z w => exact h3 ⟨⟨⟨x, y⟩, z⟩, w⟩
                    | four x y z w u => exact h4 ⟨⟨⟨⟨x, y⟩, z⟩, w⟩, u⟩

theorem strBody_append {a : Bytes} (h : LooseUtf8 a) (r : Bytes) :
    strBody true (a ++ r) = ((strBody true a).1 ++ (strBody true r).1, (strBody true r).2) := by
  have hi : ∀ {a : Byte}, 0x80 ≤ a → ¬ a ≤ 0x7F := fun h h' => absurd (UInt8.le_trans h h') (by decide)
  induction h with
  | nil => simp [strBody]
  | one h1 _ ih =>
    rw [List.cons_append, strBody.eq_def]
    simp only
    rw [if_pos h1, ih]
    conv => rhs; rw [strBody.eq_def]
    simp only
    rw [if_pos h1]
    simp
  | @two a b t h1 h2 h3 _ ih =>
    have hn : ¬ a ≤ 0x7F := hi (UInt8.le_trans (by decide) h1)
    have hc : (0xC0 ≤ a && a ≤ 0xDF && isCont b) = true := by simp [h1, h2, h3]
    rw [List.cons_append, List.cons_append, strBody.eq_def]
    simp only [if_neg hn, Bool.not_true, Bool.false_eq_true, if_false, if_pos hc]
    rw [ih]
    conv => rhs; rw [strBody.eq_def]
    simp only [if_neg hn, Bool.not_true, Bool.false_eq_true, if_false, if_pos hc]
    simp
  | @three a b c t h1 h2 h3 h4 _ ih =>
    have hn : ¬ a ≤ 0x7F := hi (UInt8.le_trans (by decide) h1)
    have hx : ¬ (0xC0 ≤ a && a ≤ 0xDF && isCont b) = true := by
      simp only [Bool.and_eq_true, decide_eq_true_eq]
      exact fun h => absurd (UInt8.le_trans h1 h.1.2) (by decide)
    have hc : (0xE0 ≤ a && a ≤ 0xEF && isCont b && isCont c) = true := by simp [h1, h2, h3, h4]
    rw [List.cons_append, List.cons_append, List.cons_append, strBody.eq_def]
    simp only [if_neg hn, Bool.not_true, Bool.false_eq_true, if_false, if_neg hx, if_pos hc]
    rw [ih]
    conv => rhs; rw [strBody.eq_def]
    simp only [if_neg hn, Bool.not_true, Bool.false_eq_true, if_false, if_neg hx, if_pos hc]
    simp
  | @four a b c d t h1 h2 h3 h4 h5 _ ih =>
    have hn : ¬ a ≤ 0x7F := hi (UInt8.le_trans (by decide) h1)
    have hx : ¬ (0xC0 ≤ a && a ≤ 0xDF && isCont b) = true := by
      simp only [Bool.and_eq_true, decide_eq_true_eq]
      exact fun h => absurd (UInt8.le_trans h1 h.1.2) (by decide)
    have hy : ¬ (0xE0 ≤ a && a ≤ 0xEF && isCont b && isCont c) = true := by
      simp only [Bool.and_eq_true, decide_eq_true_eq]
      exact fun h => absurd (UInt8.le_trans h1 h.1.1.2) (by decide)
    have hc : (0xF0 ≤ a && a ≤ 0xF4 && isCont b && isCont c && isCont d) = true := by simp [h1, h2, h3, h4, h5]
    rw [List.cons_append, List.cons_append, List.cons_append, List.cons_append, strBody.eq_def]
    simp only [if_neg hn, Bool.not_true, Bool.false_eq_true, if_false, if_neg hx, if_neg hy, if_pos hc]
    rw [ih]
    conv => rhs; rw [strBody.eq_def]
    simp only [if_neg hn, Bool.not_true, Bool.false_eq_true, if_false, if_neg hx, if_neg hy, if_pos hc]
    simp

/-- Nothing of the text can be encoded. -/
def Stuck (r : Bytes) : Prop := r ≠ [] ∧ ∀ p q, r = p ++ q → LooseUtf8 p → p = []

theorem strBody_stuck {r : Bytes} (h : Stuck r) : strBody true r = ([], false) := by
  obtain ⟨h0, h⟩ := h
  cases r with
  | nil => exact absurd rfl h0
  | cons a t =>
    have no : ∀ p q, a :: t = p ++ q → LooseUtf8 p → p ≠ [] → False := fun p q e hl hn => hn (h p q e hl)
    rw [strBody.eq_def]
    simp only
    rw [if_neg fun h1 => no [a] t rfl (.one h1 .nil) (by simp)]
    simp only [Bool.not_true, Bool.false_eq_true, if_false]
    cases t with
    | nil => rfl
    | cons b t =>
      simp only
      rw [if_neg (by
        simp only [Bool.and_eq_true, decide_eq_true_eq]
        exact fun h => no [a, b] t rfl (.two h.1.1 h.1.2 h.2 .nil) (by simp))]
      cases t with
      | nil => rfl
      | cons c t =>
        simp only
        rw [if_neg (by
          simp only [Bool.and_eq_true, decide_eq_true_eq]
          exact fun h => no [a, b, c] t rfl (.three h.1.1.1 h.1.1.2 h.1.2 h.2 .nil) (by simp))]
        cases t with
        | nil => rfl
        | cons d t =>
          simp only
          rw [if_neg (by
            simp only [Bool.and_eq_true, decide_eq_true_eq]
            exact fun h => no [a, b, c, d] t rfl (.four h.1.1.1.1 h.1.1.1.2 h.1.1.2 h.1.2 h.2 .nil) (by simp))]

theorem LooseUtf8.append {a b : Bytes} (h : LooseUtf8 a) (h' : LooseUtf8 b) : LooseUtf8 (a ++ b) := by
  induction h with
  | nil => exact h'
  | one x _ ih => exact .one x ih
  | two x y z _ ih => exact .two x y z ih
  | three x y z w _ ih => exact .three x y z w ih
  | four x y z w u _ ih => exact .four x y z w u ih

/-- Every text is one that can be encoded, followed by nothing or by something that cannot. -/
theorem loose_split (s : Bytes) : ∃ a r, s = a ++ r ∧ LooseUtf8 a ∧ (r = [] ∨ Stuck r) := by
  induction hn : s.length using Nat.strongRecOn generalizing s with
  | ind n ih =>
    by_cases h : Stuck s
    · exact ⟨[], s, rfl, .nil, .inr h⟩
    · by_cases h0 : s = []
      · exact ⟨[], [], h0, .nil, .inl rfl⟩
      · have : ∃ p q, s = p ++ q ∧ LooseUtf8 p ∧ p ≠ [] := Classical.byContradiction fun hc => h ⟨h0, fun p q e hl =>
          Classical.byContradiction fun hp => hc ⟨p, q, e, hl, hp⟩⟩
        obtain ⟨p, q, rfl, hl, hp⟩ := this
        obtain ⟨a, r, e, h1, h2⟩ := ih q.length (by
          have := List.length_pos_iff.mpr hp
          rw [← hn, List.length_append]; omega) q rfl
        exact ⟨p ++ a, r, by rw [e, List.append_assoc], hl.append h1, h2⟩

/-- C12: what is left in the output by a string that cannot be encoded, for every string: the opening quote and the text of
the longest part that can be encoded, without a closing quote. -/
theorem C12_text (s : Bytes) (e : ErrInfo) (h : (stringWrite true s e).1 ≠ .ok) :
    ∃ a r, s = a ++ r ∧ LooseUtf8 a ∧ Stuck r ∧ (stringWrite true a e).1 = .ok ∧
      (stringWrite true a e).2.1 = (stringWrite true s e).2.1 ++ [c!"\""] := by
  obtain ⟨a, r, rfl, h1, h2⟩ := loose_split s
  have ha := (strBody_loose a).mpr h1
  rcases h2 with rfl | h2
  · rw [List.append_nil] at h
    exact absurd (by simp [stringWrite, ha]) h
  · refine ⟨a, r, rfl, h1, h2, by simp [stringWrite, ha], ?_⟩
    simp [stringWrite, ha, strBody_append h1, strBody_stuck h2]

/-- C12: two strings that cannot be encoded, and the output is JSON all the same -- of another object.  (The JSON name of
the second field is a comma, as in `string b = 2 [name = ","];`.)  `serialize` returns true, and so does `deserialize`,
which leaves the first string with the value `,`. -/
theorem C12_failures_make_json :
    let t := Ty.msg false (.cons (Demo.fld b!"a") .str (.cons ⟨b!"b", b!",", b!",", false⟩ .str .nil))
    let v : t.Den := (⟨[0xFF], false⟩, ⟨b!":1" ++ [0xFF], false⟩, ())
    let out := b!"{\"a\":\",\",\":\":1}"
    serialize t (some { ensureAscii := true }) v = ⟨true, some { ensureAscii := true }, out⟩ ∧
    JVal rfc (.obj (.cons b!"a" (.str b!",") (.cons b!":" (.num b!"1") .nil))) out ∧
    (deserialize t out none t.new).map (fun r => (r.ret, r.obj)) = some (true, (⟨b!",", false⟩, StrField.new, ())) := by
  refine ⟨by decide +kernel, ?_, by decide +kernel⟩
  have raw : ∀ b : Byte, rfcRaw b → rfc.str [b] [b] := fun b h => StrChars.raw h .nil
  refine ⟨b!"\"a\":\",\",\":\":1", rfl, ?_⟩
  refine ⟨[], b!"a", [], [], b!"\",\"", [], b!"\":\":1", rfl, Ws.nil, raw _ (by decide), Ws.nil, Ws.nil, ⟨b!",", rfl, raw _ (by decide)⟩, Ws.nil, ?_⟩
  refine ⟨[], b!":", [], [], b!"1", [], rfl, Ws.nil, raw _ (by decide), Ws.nil, Ws.nil, ⟨rfl, ?_⟩, Ws.nil⟩
  have h := decInt_rfcNum 1
  rw [show decInt 1 = b!"1" from by decide +kernel] at h
  exact h

/-- C12, what is left of it: the string writer itself does report a string it cannot encode, and it accepts every UTF-8
string.  Missing from the full statement: the callers drop the report (`C12_always_true`), and strings that are malformed
in other ways (overlong, surrogates) are not noticed. -/
theorem C12_string_writer_partial (s : Bytes) (e : ErrInfo) (he : e.code = .ok) :
    (¬ LooseUtf8 s → (stringWrite true s e).1 = .error ∧ (stringWrite true s e).2.2.code = .invalidUtf8) ∧
    (LooseUtf8 s → (stringWrite true s e).1 = .ok ∧ (stringWrite true s e).2.2 = e) ∧ (Utf8 s → LooseUtf8 s) := by
  refine ⟨fun h => ?_, fun h => ?_, fun h => ?_⟩
  · have hb : (strBody true s).2 = false := by
      cases hb : (strBody true s).2 with
      | false => rfl
      | true => exact absurd ((strBody_loose s).mp hb) h
    simp [stringWrite, hb, setError, he]
  · have hb := (strBody_loose s).mpr h
    simp [stringWrite, hb]
  · obtain ⟨cps, hc, rfl⟩ := h
    exact (strBody_loose _).mp (strBody_ascii (raw := fun _ => True) (uni := fun _ => True) cps hc (fun _ _ _ _ => trivial)
      (fun _ _ _ _ => trivial)).1

example : ¬ LooseUtf8 [0x41, 0xFF] := by rw [← strBody_loose]; decide +kernel
/-- An overlong slash and an encoded surrogate pass. -/
example : LooseUtf8 [0xC0, 0xAF, 0xED, 0xA0, 0x80] := by rw [← strBody_loose]; decide +kernel

/-! ### C16 -/

/-- An address with nothing but a string that is empty but not null. -/
def Demo.noStreet : Demo.address.Den := (NumField.new, ⟨[], false⟩, ())

/-- C16 is false for strings: a null string is written `null`, and comes back as a string that is not null (and is then
written as `""`). -/
theorem C16_null_string_lost :
    (serialize Demo.address (some { serializeNull := true }) Demo.address.new).out = b!"{\"number\":null,\"street\":null}" ∧
    outcome (deserialize Demo.address b!"{\"number\":null,\"street\":null}" none Demo.address.new) = some (true, Demo.noStreet) ∧
    Demo.address.empty Demo.noStreet = false ∧ Demo.address.empty Demo.address.new = true := by decide +kernel

/-- C16 is false for bytes, repeated and message fields: an empty one is not written as `null`. -/
theorem C16_empty_containers_not_null :
    (serialize Demo.person (some { serializeNull := true }) Demo.person.new).out =
      b!"{\"addr\":{\"number\":null,\"street\":null},\"blob\":\"\",\"height\":null,\"id\":null,\"name\":null,\"past\":[],\"scores\":[],\"tags\":[]}" := by
  decide +kernel

theorem Prim.norm_zero_empty (p : Prim) (v : p.Den) (h : p.near v p.zero = true) : p.near (p.norm v) p.zero = true := by
  cases p with
  | int k => exact h
  | bool => exact h
  | flt k =>
    obtain ⟨neg, m, hv, hm⟩ := PG.near_zero k v h
    have e : v = ⟨.fin neg m, hv ▸ v.property⟩ := Subtype.ext hv
    have key : ∀ (h : Flt.Rep k (.fin neg m)), Prim.near (.flt k) (Prim.norm (.flt k) (⟨.fin neg m, h⟩ : CFlt k)) (CFlt.zero k) = true := by
      rcases hm with rfl | rfl <;> cases k <;> cases neg <;> decide +kernel
    rw [e]
    exact key _

mutual
theorem Ty.norm_empty (nulls : Bool) : (t : Ty) → (v : t.Den) → t.NoStr → t.empty v = true → t.empty (t.norm nulls v) = true
  | .num _, v, _, h => by
    have h : v.empty = true := h
    simp only [Ty.norm, h, if_true]; rfl
  | .raw p, v, _, h => p.norm_zero_empty v h
  | .str, _, h, _ => h.elim
  | .bytes, v, _, h => h
  | .rep t, v, _, h => by
    cases v with
    | nil => rfl
    | cons a as => cases h
  | .msg _ fs, v, hs, h => Fields.norm_empty nulls fs v hs h
theorem Fields.norm_empty (nulls : Bool) : (fs : Fields) → (v : fs.Den) → fs.NoStr → fs.empty v = true →
    fs.empty (fs.norm nulls v) = true
  | .nil, _, _, _ => rfl
  | .cons f t rest, v, hs, h => by
    simp only [Fields.empty, Bool.and_eq_true] at h
    simp only [Fields.empty, Fields.norm, Bool.and_eq_true]
    refine ⟨?_, Fields.norm_empty nulls rest v.2 hs.2 h.2⟩
    split
    · exact t.empty_new
    · split
      · exact Ty.norm_empty nulls t v.1 hs.1 h.1
      · exact t.empty_new
end

/-- C16, what is left of it, the first half: an empty number or boolean is written as `null`. -/
theorem C16_numbers_written_null_partial (p : Prim) (v : NumField p) (h : v.empty = true) (q : Params) (e : ErrInfo) :
    (Ty.num p).write q v e = (.ok, b!"null", e) := by
  simp only [Ty.write, h, if_true]

/-- C16, what is left of it, the second half: for types without string fields, every field that is empty when serialized
with `serialize_null` is empty again in the fresh object that reads the text.  Missing from the full statement: string
fields (false: `C16_null_string_lost`), and the `null` form of bytes, repeated and message fields (false:
`C16_empty_containers_not_null`). -/
theorem C16_empty_again_partial (obf : Bool) (fs : Fields) (params q : Option Params) (v : fs.Den)
    (hl : fs.LabelsOk) (hd : (Ty.msg obf fs).NamesOk) (hw : fs.Writable (fun b => b ≠ 0) (params.getD {}).ensureAscii v)
    (hn : fs.NoNulls v) (hs : fs.NoStr) :
    ∃ p v', deserialize (.msg obf fs) (serialize (.msg obf fs) params v).out q fs.new = some ⟨true, p, v'⟩ ∧
      ∀ i t x, fs.get i v = some ⟨t, x⟩ → t.empty x = true → ∃ x', fs.get i v' = some ⟨t, x'⟩ ∧ t.empty x' = true := by
  obtain ⟨-, p, h⟩ := C01_round_trip_norm (.msg obf fs) params q v hl hd hw hn rfl
  refine ⟨p, _, h, ?_⟩
  generalize (params.getD {}).serializeNull = nulls
  clear h hw hn hl hd
  show ∀ i t x, fs.get i v = some ⟨t, x⟩ → t.empty x = true → ∃ x', fs.get i (fs.norm nulls v) = some ⟨t, x'⟩ ∧ t.empty x' = true
  intro i t x hg he
  exact aux nulls fs v hs i t x hg he
where
  aux (nulls : Bool) : (fs : Fields) → (v : fs.Den) → fs.NoStr → (i : Nat) → (t : Ty) → (x : t.Den) →
      fs.get i v = some ⟨t, x⟩ → t.empty x = true → ∃ x', fs.get i (fs.norm nulls v) = some ⟨t, x'⟩ ∧ t.empty x' = true
  | .nil, _, _, _, _, _, hg, _ => by simp [Fields.get] at hg
  | .cons f t rest, v, hs, i, u, x, hg, he => by
    unfold Fields.get at hg ⊢
    simp only [Fields.norm]
    cases hf : f.transient with
    | true =>
      simp only [hf, if_true] at hg ⊢
      exact aux nulls rest v.2 hs.2 i u x hg he
    | false =>
      simp only [hf, Bool.false_eq_true, if_false] at hg ⊢
      cases i with
      | zero =>
        simp only [Option.some.injEq] at hg ⊢
        injection hg with h1 h2
        subst h1
        have h2 := eq_of_heq h2
        subst h2
        refine ⟨_, rfl, ?_⟩
        split
        · exact Ty.norm_empty nulls t v.1 hs.1 he
        · exact t.empty_new
      | succ i =>
        simp only at hg ⊢
        exact aux nulls rest v.2 hs.2 i u x hg he

end PG
