import Verif.Proofs.Unlex
import Verif.Props.Members
/-
C20 (termination), C21 (return value and error record), C22 (positions), C23 (independence of earlier calls).
-/
set_option autoImplicit false
namespace PG

/-! ### C20 -/

/-- C20.  `deserialize` returns, whatever the bytes, the type and the object. -/
theorem C20_terminates (t : Ty) (input : Bytes) (params : Option Params) (v : t.Den) :
    ∃ r, deserialize t input params v = some r := by
  have hm := open_m input (ctxParams params).err
  have h := (Ty.read_fin t (fuelFor input) (Tz.open' (IStream.open' input) (ctxParams params).err)
    (by unfold fuelFor; omega) v).1
  unfold deserialize deserializeFrom
  simp only
  exact ⟨_, rfl⟩

/-- C20, the bound: no loop of the readers makes more than `2 * length + 2` iterations, since with any larger limit on
the iterations the result is the same. -/
theorem C20_iteration_bound (t : Ty) (input : Bytes) (params : Option Params) (v : t.Den) (n : Nat) (hn : 2 * input.length + 2 ≤ n) :
    deserializeFrom t n (IStream.open' input) params v = deserialize t input params v := by
  have hm := open_m input (ctxParams params).err
  have h0 := (Ty.read_fin t (2 * input.length + 2) (Tz.open' (IStream.open' input) (ctxParams params).err) (by omega) v).1
  have e1 := Ty.read_mono t _ (n - (2 * input.length + 2)) _ v h0
  have e2 := Ty.read_mono t _ 6 _ v h0
  rw [show 2 * input.length + 2 + (n - (2 * input.length + 2)) = n by omega] at e1
  unfold deserialize deserializeFrom
  rw [show fuelFor input = 2 * input.length + 2 + 6 by unfold fuelFor; omega, e1, e2]

/-- `b` is reached from `a` with `k` calls of `next()` and any number of calls of `error()`. -/
inductive Steps : Nat → Tz → Tz → Prop
  | refl (a) : Steps 0 a a
  | next {k a b} : Steps k a b → Steps (k + 1) a b.next
  | error {k a b} (c) : Steps k a b → Steps k a (b.error c).2

/-- C20, the number of tokens read: the final tokenizer state is reached with at most `length` calls of `next()` after
the constructor's. -/
theorem C20_token_reads (t : Ty) (input : Bytes) (n : Nat) (e : ErrInfo) (v : t.Den) :
    ∃ k, k ≤ input.length ∧
      Steps k (Tz.open' (IStream.open' input) e) (t.read n (Tz.open' (IStream.open' input) e) v).2.1 := by
  have hm := open_m input e
  have inv : TzInv (fun tz => ∃ k, k + tz.m ≤ input.length ∧ Steps k (Tz.open' (IStream.open' input) e) tz) := {
    next := by
      rintro a ⟨k, h1, h2⟩ h3 h4
      have := Tz.next_m h3 h4
      exact ⟨k + 1, by omega, .next h2⟩
    error := by
      rintro a ⟨k, h1, h2⟩ c
      exact ⟨k, by rw [Tz.error_m]; exact h1, .error c h2⟩ }
  obtain ⟨k, h1, h2⟩ := inv.read t n ⟨0, by omega, .refl _⟩ v
  exact ⟨k, by omega, h2⟩

example : (deserialize Demo.person b!"{\"addr\":[[[[{\"x" none Demo.person.new).isSome = true ∧
    (deserializeFrom Demo.person 3 (IStream.open' b!"{\"zzz\":[1,2,3,4,5,6]}") none Demo.person.new).isSome = false := by
  decide +kernel

/-! ### C21 -/

/-- The first token of the text is `null`: line feeds aside, the text is white space, `null`, and no letter behind it. -/
def StartsWithNull (input : Bytes) : Prop :=
  ∃ w rest, clean input = w ++ (b!"null" ++ rest) ∧ Ws w ∧ (rest = [] ∨ ∃ b t, rest = b :: t ∧ isAlpha b = false)

theorem skip_clean (bs : Bytes) (l c : Nat) : clean (IStream.skip bs l c).rest = clean bs := by
  obtain ⟨-, pre, h1, h2, -⟩ := skip_adv bs l c
  conv => rhs; rw [h1, clean_append, h2]
  rfl

theorem adv_clean {s s' : IStream} {t : Bytes} (h : Adv s s' t) : clean s.rest = t ++ clean s'.rest := by
  obtain ⟨-, pre, h1, h2, -⟩ := h
  rw [h1, clean_append, h2]

theorem startsWithNull_of_tok {input : Bytes} {e : ErrInfo} (h : (Tz.open' (IStream.open' input) e).cur.id = .nil) :
    StartsWithNull input := by
  obtain ⟨w, txt, s0, h1, h2, h3, h4, -⟩ := lex_inv (IStream.open' input) (skip_norm _ _ _)
  have h : (lex (IStream.open' input)).1.id = .nil := h
  rw [h] at h4
  have e1 := adv_clean (h1.trans h3)
  rw [show clean (IStream.open' input).rest = clean input from skip_clean _ _ _] at e1
  refine ⟨w, clean (lex (IStream.open' input)).2.rest, by rw [e1, h4.1, List.append_assoc], h2, ?_⟩
  have hn := h3.1
  cases hr : (lex (IStream.open' input)).2.rest with
  | nil => left; rfl
  | cons b t =>
    right
    have hb : b ≠ 10 := fun hb => hn t (by rw [hr, hb])
    refine ⟨b, clean t, by rw [clean, List.filter_cons_of_pos (by simpa using hb)]; rfl, ?_⟩
    rcases h4.2 with h5 | h5
    · simp [IStream.eof, hr] at h5
    · unfold IStream.peek at h5; rw [hr] at h5; exact h5

/-- The error code the caller finds in its `Parameters`. -/
def DRes.code {α : Type} (r : DRes α) : Option ECode := r.params.map (fun p => p.err.code)

/-- C21.  After `true` the code is PGERR_OK.  After `false` it is not, unless the input is `null`. -/
theorem C21_code_agrees_partial (t : Ty) (input : Bytes) (p : Params) (v : t.Den) (r : DRes t.Den)
    (h : deserialize t input (some p) v = some r) :
    (r.ret = true → r.code = some .ok) ∧
    (r.ret = false → (r.code ≠ some .ok ↔ ¬ (Tz.open' (IStream.open' input) {}).cur.id = .nil)) ∧
    (r.ret = false → r.code = some .ok → StartsWithNull input) := by
  have key : (r.ret = true → r.code = some .ok) ∧
    (r.ret = false → (r.code ≠ some .ok ↔ ¬ (Tz.open' (IStream.open' input) {}).cur.id = .nil)) := by
    unfold deserialize deserializeFrom at h
    simp only at h
    have hce : (ctxParams (some p)).err = {} := rfl
    have he := (Ty.read_eok (B := Hist.loose) t (.inr Hist.loose_notes) (fuelFor input)
      (tz := Tz.open' (IStream.open' input) (ctxParams (some p)).err) (.inr trivial) v).1
    have hnil := Ty.read_nil t (fuelFor input) (Tz.open' (IStream.open' input) (ctxParams (some p)).err) v
    have hntz := Ty.read_nil_tz t (fuelFor input) (Tz.open' (IStream.open' input) (ctxParams (some p)).err) v
    split at h
    · cases h
    · rename_i hf
      injection h with h
      subst h
      simp only [DRes.code, paramsAfter, Option.map_some, decide_eq_true_eq, decide_eq_false_iff_not]
      refine ⟨fun hh => by rw [if_pos (by simpa using hh)], fun hh => ?_⟩
      rw [if_neg (by simpa using hh)]
      cases hrc : (t.read (fuelFor input) (Tz.open' (IStream.open' input) (ctxParams (some p)).err) v).1 with
      | ok => exact absurd hrc hh
      | error =>
        have h1 : ¬ (Tz.open' (IStream.open' input) {}).cur.id = .nil := fun h' => by
          rw [hnil.mpr h'] at hrc; cases hrc
        have h2 := (he hrc).1
        exact ⟨fun _ => h1, fun _ h' => h2 (by simpa using h')⟩
      | nil =>
        have h1 := hnil.mp hrc
        rw [hntz h1]
        exact ⟨fun h' => absurd rfl h', fun h' => absurd h1 h'⟩
      | fuel => exact absurd hrc hf
  refine ⟨key.1, key.2, fun h1 h2 => ?_⟩
  have h3 := key.2 h1
  apply startsWithNull_of_tok (e := {})
  apply Decidable.byContradiction
  intro h4
  exact h3.mpr h4 h2

/-- C21 is false as stated: `null` makes `deserialize` return `false` without an error. -/
theorem C21_null_without_error :
    (deserialize Demo.address b!" null" (some {}) Demo.address.new).map (fun r => (r.ret, r.code)) = some (false, some .ok) := by
  decide +kernel

example : (deserialize Demo.address b!"{\"number\":\"x\"}" (some {}) Demo.address.new).map (fun r => (r.ret, r.code)) =
      some (false, some .invalidNumber) ∧
    (deserialize Demo.address b!"{\"number\":5}" (some { err := ⟨.invalidName, 3, 4⟩ }) Demo.address.new).map
      (fun r => (r.ret, r.code)) = some (true, some .ok) := by decide +kernel

/-! ### C22 -/

/-- `(line, col)` is the 1-based position, in `input`, of a character that is not white space, or of the end. -/
def Position (input : Bytes) (line col : Nat) : Prop :=
  ∃ pre suf, input = pre ++ suf ∧ line = 1 + pre.count 10 ∧ col = 1 + (pre.reverse.takeWhile (fun b => b ≠ 10)).length ∧
    (suf = [] ∨ ∃ b t, suf = b :: t ∧ wsByte b = false)

theorem posFrom_eq (pre : Bytes) :
    posFrom (1, 1) pre = (1 + pre.count 10, 1 + (pre.reverse.takeWhile (fun b => b ≠ 10)).length) := by
  suffices h : ∀ pre' : Bytes, posFrom (1, 1) pre'.reverse = (1 + pre'.reverse.count 10, 1 + (pre'.takeWhile (fun b => b ≠ 10)).length) by
    have := h pre.reverse
    rw [List.reverse_reverse] at this
    exact this
  intro l
  induction l with
  | nil => rfl
  | cons b l ih =>
    rw [List.reverse_cons, posFrom_append, ih, List.count_append]
    by_cases hb : b = 10
    · subst hb; simp [posFrom, Nat.add_assoc]
    · simp only [posFrom, ne_eq, hb, not_false_eq_true, decide_true, List.takeWhile_cons_of_pos, List.length_cons]
      rw [List.count_singleton]
      simp [hb, Nat.add_assoc]

/-- The tokenizer is inside `input`; its token and its error record carry positions of `input` or 0, 0. -/
def PosOk (input : Bytes) (tz : Tz) : Prop :=
  Norm tz.inp ∧ (∃ pre, input = pre ++ tz.inp.rest ∧ posFrom (1, 1) pre = (tz.inp.line, tz.inp.col)) ∧
  (if tz.cur.id = .string then tz.cur.line = 0 ∧ tz.cur.col = 0 else Position input tz.cur.line tz.cur.col) ∧
  (tz.err.code ≠ .ok → Position input tz.err.line tz.err.col ∨ (tz.err.line = 0 ∧ tz.err.col = 0))

theorem posOk_next {input : Bytes} {tz : Tz} (h1 : Norm tz.inp)
    (h2 : ∃ pre, input = pre ++ tz.inp.rest ∧ posFrom (1, 1) pre = (tz.inp.line, tz.inp.col))
    (h4 : tz.err.code ≠ .ok → Position input tz.err.line tz.err.col ∨ (tz.err.line = 0 ∧ tz.err.col = 0)) :
    PosOk input tz.next := by
  obtain ⟨pre, e1, e2⟩ := h2
  obtain ⟨w, txt, s0, a1, _, a2, _, hp, hend⟩ := lex_inv tz.inp h1
  obtain ⟨n1, q, f1, -, f2⟩ := a1
  obtain ⟨n2, q', g1, -, g2⟩ := a2
  refine ⟨n2, ⟨pre ++ (q ++ q'), ?_, ?_⟩, ?_, h4⟩
  · show input = pre ++ (q ++ q') ++ (lex tz.inp).2.rest
    rw [e1, f1, g1]; simp
  · rw [posFrom_append, posFrom_append, e2, f2, g2]; rfl
  · show if (lex tz.inp).1.id = .string then _ else _
    split at hp
    · rename_i hs; rw [if_pos hs]; exact hp
    · rename_i hs
      rw [if_neg hs]
      have hpos : posFrom (1, 1) (pre ++ q) = (s0.line, s0.col) := by rw [posFrom_append, e2, f2]
      rw [posFrom_eq] at hpos
      injection hpos with p1 p2
      refine ⟨pre ++ q, s0.rest, by rw [e1, f1]; simp, ?_, ?_, ?_⟩
      · show (lex tz.inp).1.line = _
        rw [hp.1, ← p1]
      · show (lex tz.inp).1.col = _
        rw [hp.2, ← p2]
      · cases hr : s0.rest with
        | nil => left; rfl
        | cons b t =>
          right
          refine ⟨b, t, rfl, ?_⟩
          rcases hend with hh | hh
          · simp [IStream.eof, hr] at hh
          · unfold IStream.peek at hh; rw [hr] at hh; exact hh

theorem posOk_inv (input : Bytes) : TzInv (PosOk input) where
  next := fun h _ _ => posOk_next h.1 h.2.1 h.2.2.2
  error := by
    intro a h c
    unfold Tz.error
    split
    · exact h
    · refine ⟨h.1, h.2.1, h.2.2.1, fun _ => ?_⟩
      have h3 := h.2.2.1
      split at h3
      · exact .inr h3
      · exact .inl h3

theorem posOk_open (input : Bytes) (e : ErrInfo) (he : e.code = .ok) : PosOk input (Tz.open' (IStream.open' input) e) := by
  apply posOk_next
  · exact skip_norm _ _ _
  · obtain ⟨-, pre, h1, -, h2⟩ := skip_adv input 1 1
    exact ⟨pre, h1, h2⟩
  · exact fun h => absurd he h

/-- C22, for the errors that carry a position.  The full statement would exclude `0, 0`, which the code reports when the
offending token is a string (`C22_string_tokens_have_no_position`). -/
theorem C22_positions_partial (t : Ty) (input : Bytes) (p : Params) (v : t.Den) (r : DRes t.Den)
    (h : deserialize t input (some p) v = some r) (hc : r.code ≠ some .ok) :
    ∃ q, r.params = some q ∧ (Position input q.err.line q.err.col ∨ (q.err.line = 0 ∧ q.err.col = 0)) := by
  unfold deserialize deserializeFrom at h
  simp only at h
  have hp := (posOk_inv input).read t (fuelFor input) (posOk_open input (ctxParams (some p)).err rfl) v
  split at h
  · cases h
  · injection h with h
    subst h
    simp only [DRes.code, paramsAfter, Option.map_some, ne_eq, Option.some.injEq] at hc ⊢
    refine ⟨_, rfl, ?_⟩
    split at hc
    · exact absurd rfl hc
    · rename_i hh
      rw [if_neg hh]
      exact hp.2.2.2 hc

/-- C22, which token is reported: without `bytes` fields it is the last token the tokenizer delivered before
`deserialize` gave up (`tz.cur`), and its position is exact unless it is a string. -/
theorem C22_last_token_partial (t : Ty) (hb : t.NoBytes) (input : Bytes) (p : Params) (v : t.Den) (r : DRes t.Den)
    (h : deserialize t input (some p) v = some r) (hc : r.code ≠ some .ok) :
    ∃ q k tz, r.params = some q ∧ k ≤ input.length ∧ Steps k (Tz.open' (IStream.open' input) {}) tz ∧
      q.err.line = tz.cur.line ∧ q.err.col = tz.cur.col ∧
      (if tz.cur.id = .string then tz.cur.line = 0 ∧ tz.cur.col = 0 else Position input tz.cur.line tz.cur.col) := by
  unfold deserialize deserializeFrom at h
  simp only at h
  have hp := (posOk_inv input).read t (fuelFor input) (posOk_open input (ctxParams (some p)).err rfl) v
  obtain ⟨k, hk, hs⟩ := C20_token_reads t input (fuelFor input) (ctxParams (some p)).err v
  have he := Ty.read_eok (B := Hist.strict) t (.inl hb) (fuelFor input)
      (tz := Tz.open' (IStream.open' input) (ctxParams (some p)).err) (.inl ⟨rfl, trivial⟩) v
  split at h
  · cases h
  · injection h with h
    subst h
    simp only [DRes.code, paramsAfter, Option.map_some, ne_eq, Option.some.injEq] at hc ⊢
    split at hc
    · exact absurd rfl hc
    · rename_i hh
      rw [if_neg hh]
      refine ⟨_, k, _, rfl, hk, hs, ?_, ?_, hp.2.2.1⟩
      all_goals
        by_cases hrc : (t.read (fuelFor input) (Tz.open' (IStream.open' input) (ctxParams (some p)).err) v).1 = .error
        · first
            | exact ((he.1 hrc).2.resolve_right id).1
            | exact ((he.1 hrc).2.resolve_right id).2
        · exact absurd ((he.2 hrc).resolve_right id).1 hc

/-- C22 is false for errors at string tokens: they are reported at line 0, column 0. -/
theorem C22_string_tokens_have_no_position :
    (deserialize Demo.address b!"{\"number\":\"x\"}" (some {}) Demo.address.new).map
      (fun r => (r.ret, r.params.map (fun p => (p.err.line, p.err.col)))) = some (false, some (0, 0)) ∧
    ¬ Position b!"{\"number\":\"x\"}" 0 0 := by
  refine ⟨by decide +kernel, ?_⟩
  rintro ⟨pre, suf, _, h, _⟩
  omega

example : (deserialize Demo.address b!"{\n \"number\": [}" (some {}) Demo.address.new).map
      (fun r => (r.ret, r.params.map (fun p => (p.err.line, p.err.col)))) = some (false, some (2, 12)) ∧
    Position b!"{\n \"number\": [}" 2 12 :=
  ⟨by decide +kernel, b!"{\n \"number\": ", b!"[}", by decide, by decide, by decide, .inr ⟨_, _, rfl, by decide⟩⟩

/-! ### C23 -/

/-- The same parameters with another error record. -/
def Params.withErr (p : Params) (e : ErrInfo) : Params := { p with err := e }

/-- C23, deserialization: the error record left by earlier calls is irrelevant, and a successful call clears it. -/
theorem C23_deserialize_independent (t : Ty) (input : Bytes) (p : Params) (e : ErrInfo) (v : t.Den) :
    deserialize t input (some (p.withErr e)) v = deserialize t input (some p) v ∧
    ∀ r, deserialize t input (some p) v = some r → r.ret = true → r.params = some (p.withErr {}) := by
  refine ⟨rfl, ?_⟩
  intro r h hr
  unfold deserialize deserializeFrom at h
  simp only at h
  split at h
  · cases h
  · injection h with h
    subst h
    simp only [decide_eq_true_eq] at hr
    simp only [paramsAfter, hr, decide_true, if_true]; rfl

/-- C23, serialization. -/
theorem C23_serialize_independent (t : Ty) (p : Params) (e : ErrInfo) (v : t.Den) :
    serialize t (some (p.withErr e)) v = serialize t (some p) v ∧
    ((serialize t (some p) v).ret = true → (serialize t (some p) v).params = some (p.withErr {})) := by
  refine ⟨rfl, ?_⟩
  intro h
  unfold serialize at h ⊢
  simp only [decide_eq_true_eq] at h
  simp only [paramsAfter, h, decide_true, if_true]; rfl

/-- One call of the library with the caller's parameters. -/
inductive Call
  | ser (t : Ty) (v : t.Den)
  | deser (t : Ty) (input : Bytes) (v : t.Den)

/-- The caller's parameters after a call. -/
def Call.after (c : Call) (p : Option Params) : Option Params :=
  match c with
  | .ser t v => (serialize t p v).params
  | .deser t input v => match deserialize t input p v with
    | some r => r.params
    | none => p

/-- The parameters after a history of calls. -/
def history (cs : List Call) (p : Option Params) : Option Params := cs.foldl (fun p c => c.after p) p

theorem after_options (c : Call) (p : Params) : ∃ e, c.after (some p) = some (p.withErr e) := by
  cases c with
  | ser t v => exact ⟨_, rfl⟩
  | deser t input v =>
    obtain ⟨r, hr⟩ := C20_terminates t input (some p) v
    refine ⟨if r.ret then {} else (t.read (fuelFor input) (Tz.open' (IStream.open' input) (ctxParams (some p)).err) v).2.1.err, ?_⟩
    unfold Call.after
    simp only [hr]
    unfold deserialize deserializeFrom at hr
    simp only at hr
    split at hr
    · cases hr
    · injection hr with hr
      subst hr
      rfl

theorem history_options (cs : List Call) (p : Params) : ∃ e, history cs (some p) = some (p.withErr e) := by
  induction cs generalizing p with
  | nil => exact ⟨p.err, rfl⟩
  | cons c cs ih =>
    obtain ⟨e, he⟩ := after_options c p
    obtain ⟨e', he'⟩ := ih (p.withErr e)
    refine ⟨e', ?_⟩
    unfold history at he' ⊢
    rw [List.foldl_cons, he]
    exact he'

/-- C23 over whole histories: after any sequence of calls with the same `Parameters`, a call gives what it gives first. -/
theorem C23_any_history (cs : List Call) (p : Params) (t : Ty) (input : Bytes) (v : t.Den) :
    deserialize t input (history cs (some p)) v = deserialize t input (some p) v ∧
    serialize t (history cs (some p)) v = serialize t (some p) v := by
  obtain ⟨e, he⟩ := history_options cs p
  rw [he]
  exact ⟨rfl, rfl⟩

example : history [.deser Demo.address b!"{\"number\":\"x\"}" Demo.address.new, .deser Demo.address b!"[" Demo.address.new]
    (some { ensureAscii := true }) ≠ some { ensureAscii := true } := by decide +kernel

end PG
