import Verif.Proofs.Complete
import Verif.Props.Errors
/-
C54: what a successful `deserialize` says about the input.  C58: exactly which inputs are accepted, with which object.
C59: line feeds carry no meaning.  C28: exactly which strings are accepted, with which content.
-/
set_option autoImplicit false
namespace PG
open IStream

/-- An address; an address with only a number, or only a street. -/
def Demo.anAddress (n : Int) (s : Bytes) : Demo.address.Den := (⟨CInt.cast .i32 n, false⟩, ⟨s, false⟩, ())
def Demo.onlyNumber (n : Int) : Demo.address.Den := (⟨CInt.cast .i32 n, false⟩, StrField.new, ())
def Demo.onlyStreet (s : Bytes) : Demo.address.Den := (NumField.new, ⟨s, false⟩, ())

/-- Half of C58, for any type: if `deserialize` returns true, then the input without its line feeds begins with a
document that the type reads (`Reads`, a lenient JSON grammar), and the object is what absorbing the value of that
document gives. -/
theorem C58_result_is_meaning (t : Ty) (input : Bytes) (params : Option Params) (v : t.Den)
    (r : DRes t.Den) (h : deserialize t input params v = some r) (hr : r.ret = true) :
    ∃ j ls text rest, clean input = text ++ rest ∧ Spaced ls text ∧ Reads t j ls ∧ t.absorb j v = (.ok, r.obj) := by
  have hok := deserialize_ok h hr
  obtain ⟨s', ls, h1, h2, j, h3, h6⟩ := (t.read_means _ _ v).1 hok _ (open_cur _ _)
  obtain ⟨text, h4, h5⟩ := Passed.text ls (skip_norm _ _ _) h2
  exact ⟨j, ls, text, clean s'.rest, clean_open h4, h5, h3, by rw [deserialize_obj h]; exact h6⟩

theorem Spaced.upto : (ls : List Bytes) → {text : Bytes} → (rest : Bytes) → Spaced ls text → ∃ w, Ws w ∧ Upto ls (w ++ rest) (text ++ rest)
  | [], text, rest, h => ⟨text, h, rfl⟩
  | l :: ls, text, rest, h => by
    obtain ⟨w, r, rfl, hw, h⟩ := h
    obtain ⟨w', hw', h⟩ := Spaced.upto ls rest h
    exact ⟨w', hw', w, r ++ rest, by simp, hw, h⟩

/-! ### C59 -/

/-- What `deserialize` tells apart from positions: the return value, the object and the code of the error. -/
def unplaced {α : Type} (r : DRes α) : Bool × α × Option ECode := (r.ret, r.obj, r.params.map (·.err.code))

/-- C59.  Line feeds carry no meaning: inputs that are the same apart from their line feeds -- wherever they stand, even
inside strings, numbers and literals -- give the same return value, the same object and the same error code. -/
theorem C59_line_feeds_meaningless (t : Ty) (a b : Bytes) (params : Option Params) (v : t.Den) (h : clean a = clean b) :
    (deserialize t a params v).map unplaced = (deserialize t b params v).map unplaced := by
  rw [← C20_iteration_bound t a params v (2 * a.length + 2 * b.length + 2) (by omega),
    ← C20_iteration_bound t b params v (2 * a.length + 2 * b.length + 2) (by omega)]
  obtain ⟨h1, h2, h3⟩ := sameTz_bi.read t (2 * a.length + 2 * b.length + 2) (same_open h (ctxParams params).err) v
  unfold deserializeFrom
  simp only [h1, h3]
  cases hc : (t.read (2 * a.length + 2 * b.length + 2) (Tz.open' (IStream.open' b) (ctxParams params).err) v).1 <;>
    cases params <;> simp [unplaced, paramsAfter, h2.2.2.2]

/-- Both sides of the hypothesis of C59 can differ, and the position of an error does. -/
theorem C59_example :
    clean b!"{\"num\nber\":1\n2,\n}" = clean b!"{\"number\":12,}" ∧
    (deserialize Demo.address b!"{\"num\nber\":1\n2,\n}" (some {}) Demo.address.new).map (fun r => (unplaced r, r.params.map (·.err.line))) =
      some ((false, Demo.onlyNumber 12, some .invalidName), some 4) ∧
    (deserialize Demo.address b!"{\"number\":12,}" (some {}) Demo.address.new).map (fun r => (unplaced r, r.params.map (·.err.line))) =
      some ((false, Demo.onlyNumber 12, some .invalidName), some 1) := by decide +kernel

/-! ### C58 -/

/-- C58.  Exactly the accepted inputs: `deserialize` of a message returns true and leaves the object `o` iff the input
without its line feeds begins with an object of the grammar `Reads` -- of lexemes with white space between them -- whose
value absorbed into the object gives `o`.  What follows that object is not looked at. -/
theorem C58_accepted_iff (obf : Bool) (fs : Fields) (input : Bytes) (params : Option Params) (v o : (Ty.msg obf fs).Den) :
    (∃ r, deserialize (.msg obf fs) input params v = some r ∧ r.ret = true ∧ r.obj = o) ↔
    ∃ j ls text rest, clean input = text ++ rest ∧ Spaced ls text ∧ Reads (.msg obf fs) j ls ∧
      (Ty.msg obf fs).absorb j v = (.ok, o) := by
  constructor
  · rintro ⟨r, h, hr, rfl⟩
    exact C58_result_is_meaning _ _ _ _ _ h hr
  · rintro ⟨j, ls, text, rest, h1, h2, h3, h4⟩
    obtain ⟨w, -, hu⟩ := Spaced.upto ls rest h2
    rw [← h1] at hu
    have he : EndsFor j [] (w ++ rest) := by
      cases j with
      | obj _ => exact fun _ _ => trivial
      | arr _ => exact fun _ _ => trivial
      | _ => simp [Ty.absorb] at h4
    have hs : Stand (Tz.open' (IStream.open' (clean input)) (ctxParams params).err) (ls ++ []) (w ++ rest) :=
      ⟨clean input, by simpa using hu, At.open _ _⟩
    let n := 2 * ls.length + 2 * (clean input).length + 2
    obtain ⟨tz', hrd, -⟩ := (Ty.read_takes (.msg obf fs) n v h3 (by omega) he hs).1 (by rw [h4])
    rw [h4] at hrd
    have hd : ∃ r, deserialize (.msg obf fs) (clean input) params v = some r ∧ r.ret = true ∧ r.obj = o := by
      rw [← C20_iteration_bound (.msg obf fs) (clean input) params v n (by omega)]
      unfold deserializeFrom
      simp only [hrd]
      exact ⟨_, rfl, rfl, rfl⟩
    obtain ⟨r, hr1, hr2, hr3⟩ := hd
    have := C59_line_feeds_meaningless (.msg obf fs) input (clean input) params v (clean_clean input).symm
    rw [hr1] at this
    simp only [Option.map_some, Option.map_eq_some_iff] at this
    obtain ⟨r', h5, h6⟩ := this
    simp only [unplaced, Prod.mk.injEq] at h6
    exact ⟨r', h5, by rw [h6.1]; exact hr2, by rw [h6.2.1]; exact hr3⟩

/-- The right hand side of C58 is met by ` {"number" :5,"z":[1,],"street":null} x`: a known member, a skipped one with a
comma too many, a null. -/
example : ∃ j ls text rest, clean b!" {\"number\" :5,\"z\":[1,],\"street\":null} x" = text ++ rest ∧ Spaced ls text ∧
    Reads Demo.address j ls ∧ Demo.address.absorb j Demo.address.new = (.ok, Demo.anAddress 5 []) := by
  refine ⟨.obj (.cons b!"number" (.num b!"5") (.cons b!"z" (.arr (.cons (.num b!"1") .nil)) (.cons b!"street" .null .nil))),
    [b!"{", b!"\"number\"", b!":", b!"5", b!",", b!"\"z\"", b!":", b!"[", b!"1", b!",", b!"]", b!",", b!"\"street\"", b!":",
      b!"null", b!"}"], b!" {\"number\" :5,\"z\":[1,],\"street\":null} ", b!"x", by decide, ?_, ?_, by decide +kernel⟩
  · refine ⟨b!" ", _, rfl, by unfold Ws; decide, [], _, rfl, Ws.nil, b!" ", _, rfl, by unfold Ws; decide, [], _, rfl, Ws.nil, [], _, rfl, Ws.nil,
      [], _, rfl, Ws.nil, [], _, rfl, Ws.nil, [], _, rfl, Ws.nil, [], _, rfl, Ws.nil, [], _, rfl, Ws.nil, [], _, rfl, Ws.nil,
      [], _, rfl, Ws.nil, [], _, rfl, Ws.nil, [], _, rfl, Ws.nil, [], _, rfl, Ws.nil, [], _, rfl, Ws.nil, ?_⟩
    unfold Spaced Ws; decide
  · have lit : ∀ s : Bytes, (∀ b ∈ s, wideRaw b) → StrMeans none s s := by
      intro s h
      induction s with
      | nil => exact .nil
      | cons b t ih => exact .raw (h b (by simp)) (ih fun c hc => h c (by simp [hc]))
    unfold Demo.address
    rw [reads_msg]
    refine ⟨_, rfl, .cons (a := [b!"5"]) (k := b!"number") ⟨_, rfl, lit _ (by unfold wideRaw; decide)⟩ ?_
      (.cons (a := [b!"[", b!"1", b!",", b!"]"]) (k := b!"z") ⟨_, rfl, lit _ (by unfold wideRaw; decide)⟩ ?_
        (.one (a := [b!"null"]) (k := b!"street") ⟨_, rfl, lit _ (by unfold wideRaw; decide)⟩ ?_))⟩
    · exact ⟨_, rfl, rfl, ⟨_, _, rfl, .inr (by decide)⟩, by decide⟩
    · exact .arr (inner := [b!"1", b!","]) (.trail (a := [b!"1"]) (.tok ⟨rfl, ⟨_, _, rfl, .inr (by decide)⟩, by decide⟩))
    · exact ⟨_, rfl, rfl⟩

/-! ### C28 -/

/-- C28, exactly: `json<std::string>::read` succeeds with `content` iff the input without its line feeds is white space, a
quote, characters that `StrMeans` assigns `content` to, a quote and anything. -/
theorem C28_string_iff (input content v : Bytes) (e : ErrInfo) :
    (∃ tz', stringRead (Tz.open' (IStream.open' input) e) v = (.ok, tz', content)) ↔
    ∃ w body tail, clean input = w ++ c!"\"" :: (body ++ c!"\"" :: tail) ∧ Ws w ∧ StrMeans none body content := by
  constructor
  · rintro ⟨tz', h⟩
    have hid : (Tz.open' (IStream.open' input) e).cur.id = .string := by
      unfold stringRead at h
      split at h
      · cases h
      · apply Classical.byContradiction
        intro hne
        simp only [expect_neg hne] at h
        have := congrArg Prod.fst h
        simp only [error_fst] at this
        cases this
    have hval : (Tz.open' (IStream.open' input) e).cur.value = content := by
      unfold stringRead at h
      rw [if_neg (by rw [hid]; decide)] at h
      simp only [expect_pos hid, Prod.mk.injEq] at h
      exact h.2.2
    obtain ⟨w, txt, s0, h1, h2, h3, h4, -⟩ := lex_inv (IStream.open' input) (skip_norm _ _ _)
    have hid' : (lex (IStream.open' input)).1.id = .string := hid
    have hval' : (lex (IStream.open' input)).1.value = content := hval
    rw [hid', hval'] at h4
    obtain ⟨body, rfl, hm⟩ := h4
    refine ⟨w, body, clean (lex (IStream.open' input)).2.rest, ?_, h2, hm⟩
    rw [clean_open (h1.trans h3)]
    simp
  · rintro ⟨w, body, tail, h1, h2, h3⟩
    have hat := (At.open (clean input) e)
    rw [h1] at hat
    obtain ⟨k1, k2, -⟩ := (hat.dropWs h2).tok (LexTo.means h3 tail)
    rw [← h1] at k1 k2
    obtain ⟨r1, -, r3⟩ := sameTz_bi.string (same_open (clean_clean input).symm e) v
    have hok : stringRead (Tz.open' (IStream.open' (clean input)) e) v =
        (.ok, (Tz.open' (IStream.open' (clean input)) e).next, content) := by
      unfold stringRead
      rw [if_neg (by rw [k1]; decide)]
      simp only [expect_pos k1, k2]
    rw [hok] at r1 r3
    exact ⟨(stringRead (Tz.open' (IStream.open' input) e) v).2.1, Prod.ext r1 (Prod.ext rfl r3)⟩

/-! ### C54 -/

/-- C54.  If `deserialize` of a message returns true, then the input without its line feeds begins with white space and
`{`, ends -- up to text that was not looked at -- with the matching `}`, and the lexemes between them form an object of
the lenient grammar `Lv`: members are a string, a colon and a value, separated by commas; brackets and braces match;
literals, strings and escapes have the form JSON gives them, numbers consist of the characters of numbers. -/
theorem C54_accepted_is_object (obf : Bool) (fs : Fields) (input : Bytes) (params : Option Params) (v : fs.Den)
    (r : DRes (Ty.msg obf fs).Den) (h : deserialize (.msg obf fs) input params v = some r) (hr : r.ret = true) :
    ∃ ls text rest, clean input = text ++ rest ∧ Spaced ls text ∧
      (ls = [b!"{", b!"}"] ∨ ∃ inner ms, ls = b!"{" :: (inner ++ [b!"}"]) ∧ LMe true ms inner) := by
  obtain ⟨j, ls, text, rest, h1, h2, h3, h4⟩ := C58_result_is_meaning (.msg obf fs) input params v r h hr
  refine ⟨ls, text, rest, h1, h2, ?_⟩
  cases Reads.lv _ h3 with
  | obj0 => exact .inl rfl
  | obj hi => exact .inr ⟨_, _, rfl, hi⟩
  | arr0 => simp [Ty.absorb] at h4
  | arr hi => simp [Ty.absorb] at h4
  | tok hs => cases j with
    | arr | obj => exact hs.elim
    | _ => simp [Ty.absorb] at h4

/-- C54 for any type: arrays and scalars as well. -/
theorem C54_accepted_is_value (t : Ty) (input : Bytes) (params : Option Params) (v : t.Den)
    (r : DRes t.Den) (h : deserialize t input params v = some r) (hr : r.ret = true) :
    ∃ j ls text rest, clean input = text ++ rest ∧ Spaced ls text ∧ Lv true j ls := by
  obtain ⟨j, ls, text, rest, h1, h2, h3, _⟩ := C58_result_is_meaning t input params v r h hr
  exact ⟨j, ls, text, rest, h1, h2, Reads.lv _ h3⟩

/-- The hypotheses are met, and the leniencies of the grammar are real: a line feed inside a numeral, a comma before the
closing brace of a skipped object, a numeral that JSON does not allow, and text behind the object. -/
theorem C54_leniencies :
    outcome (deserialize Demo.address b!"{\"number\":1\n2}" none Demo.address.new) =
      some (true, Demo.onlyNumber 12) ∧
    outcome (deserialize Demo.address b!"{\"x\":{\"y\":[1,],},\"street\":\"a\"} ]" none Demo.address.new) =
      some (true, Demo.onlyStreet b!"a") ∧
    outcome (deserialize Demo.address b!"{\"number\":-007e}" none Demo.address.new) =
      some (true, Demo.onlyNumber (-7)) := by decide +kernel

/-- What is read is strict: a comma before the closing brace or bracket is rejected there. -/
example : outcome (deserialize Demo.address b!"{\"number\":1,}" none Demo.address.new) =
      some (false, Demo.onlyNumber 1) ∧
    (outcome (deserialize Demo.tagged b!"{\"tags\":[\"a\",]}" none (Demo.tags []))).map (·.1) = some false := by decide +kernel

end PG
