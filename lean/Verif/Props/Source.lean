import Verif.Model.Source
import Verif.Props.RoundTrip
import Verif.Props.Streams
import Verif.Props.Errors
/-
C24 for `std::istream`, and C68 (several documents in one stream).
-/
set_option autoImplicit false
namespace PG

/-! ### The iterators over a `std::istream` -/

/-- The characters still to come, as the byte-list stream. -/
def SStream.abs (s : SStream) : IStream := ⟨s.cur.toList ++ s.src.avail, s.line, s.col⟩

/-- The iterator is at the end exactly when an extraction has failed. -/
def SStream.Ok (src0 : StdIn) (s : SStream) : Prop :=
  s.src.skipws = false ∧ s.cur.isNone = s.src.fail ∧
  (if src0.fail then s.src = src0 else (s.src.fail = true → s.src.rest = []))

theorem SStream.inc_abs (src0 : StdIn) (s : SStream) (hs : s.src.skipws = false)
    (h0 : if src0.fail then s.src = src0 else (s.src.fail = true → s.src.rest = [])) :
    s.inc.Ok src0 ∧ s.inc.abs.rest = s.src.avail ∧ s.inc.line = s.line ∧ s.inc.col = s.col := by
  unfold SStream.Ok SStream.abs SStream.inc StdIn.avail StdIn.get
  by_cases hf : s.src.fail = true
  · rw [if_pos hf]; simpa [hf, hs] using h0
  · have h00 : src0.fail = false := by
      cases hh : src0.fail with
      | false => rfl
      | true => rw [hh, if_pos rfl] at h0; rw [h0] at hf; exact absurd hh hf
    rw [if_neg hf]
    simp only [hs, Bool.false_eq_true, if_false, h00]
    cases hd : s.src.rest with
    | nil => simp [hs]
    | cons b t => simp [hs, hf]

theorem SStream.skip_abs (src0 : StdIn) (s : SStream) (h : s.Ok src0) :
    s.skip.Ok src0 ∧ s.skip.abs = IStream.skip s.abs.rest s.line s.col := by
  induction hk : s.m using Nat.strongRecOn generalizing s with
  | ind k ih =>
    unfold SStream.skip
    by_cases hc : s.cur = some 10
    · rw [dif_pos hc]
      obtain ⟨h1, h2, h3, h4⟩ := s.inc_abs src0 h.1 h.2.2
      have h5 := s.inc_m (by rw [hc]; rfl)
      obtain ⟨h6, h7⟩ := ih s.inc.m (by omega) { s.inc with line := s.line + 1, col := 1 } h1 rfl
      refine ⟨h6, ?_⟩
      rw [h7]
      show IStream.skip s.inc.abs.rest (s.line + 1) 1 = _
      rw [h2]
      show _ = IStream.skip (s.cur.toList ++ s.src.avail) s.line s.col
      rw [hc]
      simp [IStream.skip]
    · rw [dif_neg hc]
      refine ⟨h, ?_⟩
      cases hcur : s.cur with
      | none =>
        have hf := h.2.1
        rw [hcur] at hf
        unfold SStream.abs StdIn.avail
        rw [hcur, ← hf]; simp [IStream.skip]
      | some b =>
        have hb : b ≠ 10 := fun hb => hc (by rw [hcur, hb])
        unfold SStream.abs
        rw [hcur]
        simp [IStream.skip, hb]

theorem SStream.next_abs (src0 : StdIn) (s : SStream) (h : s.Ok src0) : s.next.Ok src0 ∧ s.next.abs = s.abs.next := by
  unfold SStream.next SStream.eof
  cases hcur : s.cur with
  | none =>
    refine ⟨h, ?_⟩
    have hf := h.2.1
    rw [hcur] at hf
    simp only [Option.isNone_none, if_true]
    unfold SStream.abs StdIn.avail IStream.next
    rw [hcur, ← hf]; simp
  | some b =>
    simp only [Option.isNone_some, Bool.false_eq_true, if_false]
    obtain ⟨h1, h2, h3, h4⟩ := s.inc_abs src0 h.1 h.2.2
    obtain ⟨h6, h7⟩ := SStream.skip_abs src0 { s.inc with col := s.col + 1 } h1
    refine ⟨h6, ?_⟩
    rw [h7]
    show IStream.skip s.inc.abs.rest s.inc.line (s.col + 1) = _
    rw [h2, h3]
    unfold SStream.abs IStream.next
    rw [hcur]
    simp

theorem SStream.open_abs (src : StdIn) (hs : src.skipws = false) :
    (SStream.open' src).Ok src ∧ (SStream.open' src).abs = IStream.open' src.avail := by
  obtain ⟨h1, h2, h3, h4⟩ := SStream.inc_abs src ⟨src, none, 1, 1⟩ hs (by split <;> simp_all)
  obtain ⟨h6, h7⟩ := SStream.skip_abs src (SStream.inc ⟨src, none, 1, 1⟩) h1
  refine ⟨h6, ?_⟩
  unfold SStream.open'
  rw [h7, h2, h3, h4]
  rfl

theorem SStream.src_abs {src0 : StdIn} {s : SStream} (hs : src0.skipws = false) (h : s.Ok src0) :
    s.src = src0.after s.abs := by
  obtain ⟨h1, h2, h3⟩ := h
  unfold StdIn.after
  cases h0 : src0.fail with
  | true => rw [h0] at h3; simpa using h3
  | false =>
    rw [h0] at h3
    simp only [Bool.false_eq_true, if_false] at h3 ⊢
    obtain ⟨⟨rest, fail, skipws⟩, cur, line, col⟩ := s
    simp only at h1 h2 h3
    subst h1
    unfold SStream.abs StdIn.avail
    cases cur with
    | none => simp only [Option.isNone_none] at h2; subst h2; simp [h3, hs]
    | some b => simp only [Option.isNone_some] at h2; subst h2; simp [hs]

theorem runS_runI {σ : Type} (src0 : StdIn) (c : Client σ) (n : Nat) (x : σ) (s : SStream) (h : s.Ok src0) :
    (c.runS n x s).1 = (c.runI n x s.abs).1 ∧ (c.runS n x s).2.Ok src0 ∧ (c.runS n x s).2.abs = (c.runI n x s.abs).2 := by
  induction n generalizing x s with
  | zero => exact ⟨rfl, h, rfl⟩
  | succ n ih =>
    have hp : s.peek = s.abs.peek := by
      unfold SStream.peek SStream.abs IStream.peek StdIn.avail
      have h2 := h.2.1
      cases hc : s.cur with
      | none => rw [hc] at h2; rw [← h2]; simp
      | some b => simp
    have he : s.eof = s.abs.eof := by
      unfold SStream.eof SStream.abs IStream.eof StdIn.avail
      have h2 := h.2.1
      cases hc : s.cur with
      | none => rw [hc] at h2; rw [← h2]; simp
      | some b => simp
    unfold Client.runS Client.runI
    simp only [hp, he]
    show (c.runS n (c.step x s.abs.peek s.abs.eof s.abs.line s.abs.col).1
      (if (c.step x s.abs.peek s.abs.eof s.abs.line s.abs.col).2 = true then s.next else s)).1 = _ ∧ _
    cases hb : (c.step x s.abs.peek s.abs.eof s.abs.line s.abs.col).2 with
    | false =>
      have hb' : (c.step x s.abs.peek s.abs.eof s.line s.col).2 = false := hb
      simp only [hb', Bool.false_eq_true, if_false]
      exact ih _ s h
    | true =>
      have hb' : (c.step x s.abs.peek s.abs.eof s.line s.col).2 = true := hb
      obtain ⟨h1, h2⟩ := SStream.next_abs src0 s h
      simp only [hb', if_true]
      rw [← h2]
      exact ih _ s.next h1

/-- C24, for `std::istream`: whatever a client of the stream interface does, it sees what it sees over the sequence of the
characters in the stream, and what is left in the stream is what lies behind the character under its cursor. -/
theorem C24_istream {σ : Type} (c : Client σ) (n : Nat) (x : σ) (src : StdIn) (hs : src.skipws = false) :
    (c.runS n x (SStream.open' src)).1 = (c.runI n x (IStream.open' src.avail)).1 ∧
    (c.runS n x (SStream.open' src)).2.src = src.after (c.runI n x (IStream.open' src.avail)).2 := by
  obtain ⟨h1, h2⟩ := SStream.open_abs src hs
  obtain ⟨h3, h4, h5⟩ := runS_runI src c n x _ h1
  rw [h2] at h3 h5
  exact ⟨h3, by rw [← h5]; exact SStream.src_abs hs h4⟩

example : (Client.runS ⟨fun x b e _ _ => (x ++ [b], !e)⟩ 3 [] (SStream.open' ⟨b!"\na\n bcd", false, false⟩)).2.src.rest = b!"d" := by
  decide +kernel

/-- C24: `deserialize(std::istream&)` returns what `deserialize(const std::string&)` returns for the characters in the
stream, and restores the flag `skipws`. -/
theorem C24_istream_agrees (t : Ty) (src : StdIn) (params : Option Params) (v : t.Den) :
    ∃ r src', deserializeStd t src params v = some (r, src') ∧ deserialize t src.avail params v = some r ∧
      src'.skipws = src.skipws := by
  obtain ⟨r, hr⟩ := C20_terminates t src.avail params v
  have hd := hr
  unfold deserialize deserializeFrom at hr
  simp only at hr
  unfold deserializeStd
  simp only
  split at hr
  · cases hr
  · rename_i hf
    injection hr with hr
    split
    · rename_i h; exact absurd h hf
    · refine ⟨_, _, rfl, ?_, ?_⟩
      · rw [hd, ← hr]
      · unfold StdIn.after; split <;> rfl

/-! ### C68 -/

/-- The two-step story: read a `t1` from the stream, then a `t2` from what the first call has left. -/
def readTwo (t1 t2 : Ty) (src : StdIn) : Option (DRes t1.Den × DRes t2.Den × StdIn) :=
  match deserializeStd t1 src none t1.new with
  | none => none
  | some (r1, src1) =>
    match deserializeStd t2 src1 none t2.new with
    | none => none
    | some (r2, src2) => some (r1, r2, src2)

theorem dropLF_skip (bs : Bytes) (l c : Nat) : (IStream.skip bs l c).rest = bs.dropWhile (fun b => b = 10) := by
  induction bs generalizing l c with
  | nil => rfl
  | cons b t ih =>
    unfold IStream.skip
    by_cases h : b = 10
    · rw [if_pos h, ih]; simp [h]
    · rw [if_neg h]; simp [h]

/-- What reading a document leaves in the stream, if the document is followed by the token `tok`: the token is gone, and so
are the line feeds behind it and one more character. -/
theorem left_behind (t : Ty) (fail0 : StdIn) (hf : fail0.fail = false) (params : Option Params) (v : t.Den) {j : J} {w b rest more : Bytes}
    {id : TId} {val : Bytes} (hi : fail0.rest = w ++ (b ++ rest)) (hw : Ws w) (hb : JVal wide j b) (he : EndOk j rest)
    (hok : (t.absorb j v).1 = .ok) (hl : LexTo rest id val more) :
    ∃ p, deserializeStd t fail0 params v = some (⟨true, p, (t.absorb j v).2⟩,
      { fail0 with rest := (more.dropWhile (fun b => b = 10)).tail, fail := (more.dropWhile (fun b => b = 10)).isEmpty }) := by
  have hav : fail0.avail = w ++ (b ++ rest) := by unfold StdIn.avail; rw [hf]; simpa using hi
  have ha : At (Tz.open' (IStream.open' (w ++ (b ++ rest))) (ctxParams params).err) (b ++ rest) :=
    (At.open _ _).dropWs hw
  have h := Ty.read_refines t (fuelFor (w ++ (b ++ rest))) j b rest _ v hb (by unfold fuelFor; simp; omega) he ha
  unfold Refines at h
  rw [hok] at h
  obtain ⟨tz', h1, h2⟩ := h
  unfold deserializeStd
  rw [hav, h1]
  simp only
  obtain ⟨l, c, h3⟩ := h2
  obtain ⟨tl, tc, l', c', h4⟩ := hl l c
  rw [h4] at h3
  injection h3 with h5 h6
  refine ⟨paramsAfter params true tz'.err, ?_⟩
  unfold StdIn.after
  rw [hf, ← h6, dropLF_skip]
  rfl

theorem LexTo.eos : LexTo [] .eos [] [] := by
  intro l c
  refine ⟨l, c, l, c, ?_⟩
  unfold lex
  simp [IStream.skip, IStream.eof]

/-- Reading a message from characters whose first token is not `{` fails and leaves the object alone. -/
theorem no_object (obf : Bool) (fs : Fields) (src : StdIn) (params : Option Params) (v : fs.Den)
    (h : (lex (IStream.open' src.avail)).1.id ≠ .objs) :
    ∃ p src', deserializeStd (.msg obf fs) src params v = some (⟨false, p, v⟩, src') := by
  have h : (Tz.open' (IStream.open' src.avail) (ctxParams params).err).cur.id ≠ .objs := h
  unfold deserializeStd Ty.read readObj
  simp only
  by_cases hn : (Tz.open' (IStream.open' src.avail) (ctxParams params).err).cur.id = .nil
  · rw [if_pos hn]
    exact ⟨_, _, rfl⟩
  · rw [if_neg hn]
    unfold Tz.expect
    rw [if_neg h]
    simp only [error_fst]
    exact ⟨_, _, rfl⟩

/-- A character a name in a schema can begin with, or a digit. -/
def nameByte (c : Byte) : Bool := isAlpha c || isDigit c || c == c!"_"

theorem lex_name {c : Byte} (hc : nameByte c = true) (t : Bytes) : (lex (IStream.open' (c :: t))).1.id ≠ .objs := by
  have key : ∀ c : Byte, nameByte c = true → c ≠ 10 ∧ c ≠ c!" " ∧ c ≠ 9 ∧ c ≠ 13 ∧ c ≠ c!"{" ∧ c ≠ c!"}" ∧ c ≠ c!"[" ∧ c ≠ c!"]" ∧
      c ≠ c!":" ∧ c ≠ c!"," ∧ c ≠ c!"\"" := by
    have : ∀ n : _root_.Fin 256, nameByte (UInt8.ofNat n) = true → UInt8.ofNat n ≠ 10 ∧ UInt8.ofNat n ≠ c!" " ∧ UInt8.ofNat n ≠ 9 ∧
      UInt8.ofNat n ≠ 13 ∧ UInt8.ofNat n ≠ c!"{" ∧ UInt8.ofNat n ≠ c!"}" ∧ UInt8.ofNat n ≠ c!"[" ∧ UInt8.ofNat n ≠ c!"]" ∧
      UInt8.ofNat n ≠ c!":" ∧ UInt8.ofNat n ≠ c!"," ∧ UInt8.ofNat n ≠ c!"\"" := by decide +kernel
    intro c hc
    have h := this ⟨c.toNat, c.toNat_lt⟩
    simp only [UInt8.ofNat_toNat] at h
    exact h hc
  obtain ⟨h1, h2, h3, h4, h5, h6, h7, h8, h9, h10, h11⟩ := key c hc
  unfold lex IStream.open'
  rw [dif_pos (IStream.skip_eof h1 t 1 1), IStream.skip_peek h1]
  simp only [h2, h3, h4, h1, h5, h6, h7, h8, h9, h10, h11, if_false, decide_false, Bool.or_self, Bool.false_eq_true]
  split
  · simp
  · unfold identToken
    simp only
    split
    · simp
    · split
      · simp
      · split <;> simp

theorem write_head (p : Params) : (fs : Fields) → (v : fs.Den) → (e : ErrInfo) →
    (fs.write p v true e).1 = [] ∨ ∃ lab ∈ fs.labels, ∃ more, (fs.write p v true e).1 = b!"\"" ++ (lab ++ (b!"\":" ++ more))
  | .nil, _, _ => by left; simp [Fields.write]
  | .cons f t rest, v, e => by
    unfold Fields.write Fields.labels
    cases hf : f.transient with
    | true => simpa using write_head p rest v.2 e
    | false =>
      simp only [Bool.false_eq_true, if_false]
      split
      · right
        refine ⟨f.wlabel, by simp, (t.write p v.1 e).2.1 ++ (rest.write p v.2 false (t.write p v.1 e).2.2).1, ?_⟩
        simp [List.append_assoc]
      · rcases write_head p rest v.2 e with h | ⟨lab, h1, more, h2⟩
        · left; exact h
        · right; exact ⟨lab, List.mem_cons_of_mem _ h1, more, h2⟩

theorem serialize_msg_out (obf : Bool) (fs : Fields) (params : Option Params) (v : fs.Den) :
    ∃ body, (serialize (.msg obf fs) params v).out = c!"{" :: (body ++ b!"}") ∧
      (body = [] ∨ ∃ lab ∈ fs.labels, ∃ more, body = b!"\"" ++ (lab ++ (b!"\":" ++ more))) := by
  refine ⟨_, ?_, write_head (ctxParams params) fs v (ctxParams params).err⟩
  unfold serialize Ty.write
  rfl

theorem ws_lex : {w : Bytes} → Ws w → ∃ id val, LexTo w id val []
  | [], _ => ⟨_, _, LexTo.eos⟩
  | b :: w, h => by
    obtain ⟨id, val, hl⟩ := ws_lex (w := w) (fun b hb => h b (List.mem_cons_of_mem _ hb))
    exact ⟨id, val, hl.ws1 (h b (List.mem_cons_self ..))⟩

theorem Ws.lex_not_objs {w : Bytes} (h : Ws w) : (lex (IStream.open' w)).1.id ≠ .objs := by
  have : ∀ w : Bytes, Ws w → LexTo w .eos [] [] := by
    intro w
    induction w with
    | nil => intro _; exact LexTo.eos
    | cons b w ih => intro h; exact (ih (fun b hb => h b (List.mem_cons_of_mem _ hb))).ws1 (h b (List.mem_cons_self ..))
  obtain ⟨tl, tc, l', c', h'⟩ := this w h 1 1
  unfold IStream.open'
  rw [h']
  simp

/-- **C68 is false**, in general: of two objects written one after the other to a stream, with any white space between them,
only the first can be read back.  The second call always fails and leaves its object as it was: the first has taken
the opening brace and the character behind it. -/
theorem C68_second_lost (obf1 obf2 : Bool) (fs1 fs2 : Fields) (params : Option Params) (o1 : fs1.Den) (o2 : fs2.Den) (w w' : Bytes) (sk : Bool)
    (hl : (Ty.msg obf1 fs1).LabelsOk) (hd : (Ty.msg obf1 fs1).NamesOk)
    (hw : (Ty.msg obf1 fs1).Writable (fun b => b ≠ 0) (params.getD {}).ensureAscii o1) (hn : (Ty.msg obf1 fs1).NoNulls o1)
    (h2 : ∀ lab ∈ fs2.labels, ∃ c, lab.head? = some c ∧ nameByte c = true) (hw1 : Ws w) (hw2 : Ws w') :
    ∃ r1 r2 src2, readTwo (.msg obf1 fs1) (.msg obf2 fs2)
        ⟨(serialize (.msg obf1 fs1) params o1).out ++ (w ++ ((serialize (.msg obf2 fs2) params o2).out ++ w')), false, sk⟩ =
        some (r1, r2, src2) ∧
      r1.ret = true ∧ r1.obj = (Ty.msg obf1 fs1).norm (params.getD {}).serializeNull o1 ∧
      r2.ret = false ∧ r2.obj = (Ty.msg obf2 fs2).new := by
  obtain ⟨-, hj⟩ := serialize_text lexOk_wide (.msg obf1 fs1) params o1 hl hw
  obtain ⟨body, hb, hbody⟩ := serialize_msg_out obf2 fs2 params o2
  rw [hb]
  have hab := Ty.absorb_toJ (params.getD {}).serializeNull (.msg obf1 fs1) o1 (Ty.NamesOk.dispatch _ hd) hn
  have hok : ((Ty.msg obf1 fs1).absorb ((Ty.msg obf1 fs1).toJ (params.getD {}).serializeNull o1) (Ty.msg obf1 fs1).new).1 = .ok := by
    rw [hab]; rfl
  obtain ⟨p1, hr1⟩ := left_behind (.msg obf1 fs1)
    ⟨(serialize (.msg obf1 fs1) params o1).out ++ (w ++ (c!"{" :: (body ++ b!"}") ++ w')), false, sk⟩ rfl none (Ty.msg obf1 fs1).new
    (w := []) (rest := w ++ (c!"{" :: (body ++ b!"}") ++ w')) (more := (body ++ b!"}") ++ w') rfl Ws.nil hj
    (by unfold Ty.toJ; trivial) hok (LexTo.ws hw1 (LexTo.objs _))
  have hlex : (lex (IStream.open' (StdIn.avail
      { rest := (((body ++ b!"}") ++ w').dropWhile (fun b => b = 10)).tail,
        fail := (((body ++ b!"}") ++ w').dropWhile (fun b => b = 10)).isEmpty, skipws := sk }))).1.id ≠ .objs := by
    rcases hbody with rfl | ⟨lab, hm, more, rfl⟩
    · simpa [StdIn.avail] using Ws.lex_not_objs hw2
    · simp only [List.cons_append, List.nil_append, List.append_assoc, StdIn.avail]
      rw [List.dropWhile_cons_of_neg (by decide)]
      simp only [List.isEmpty_cons, List.tail_cons, Bool.false_eq_true, if_false]
      cases hlab : lab with
      | nil => obtain ⟨c, hc, -⟩ := h2 lab hm; rw [hlab] at hc; cases hc
      | cons c t =>
        obtain ⟨c', hc, hc'⟩ := h2 lab hm
        rw [hlab] at hc
        injection hc with hc
        subst hc
        exact lex_name hc' _
  obtain ⟨p2, src2, hr2⟩ := no_object obf2 fs2 _ none (Ty.msg obf2 fs2).new hlex
  rw [hab] at hr1
  refine ⟨⟨true, p1, (Ty.msg obf1 fs1).norm (params.getD {}).serializeNull o1⟩, ⟨false, p2, (Ty.msg obf2 fs2).new⟩, src2, ?_, rfl, rfl, rfl, rfl⟩
  · unfold readTwo
    rw [hr1]
    simp only
    rw [hr2]

/-- **C68, what is missing** is a separator that the reader of the first object can swallow: with a comma and one more character
(other than a line feed) between them, both objects are read back. -/
theorem C68_separated_partial (obf1 obf2 : Bool) (fs1 fs2 : Fields) (params : Option Params) (o1 : fs1.Den) (o2 : fs2.Den) (w w' : Bytes)
    (sk : Bool) (x : Byte)
    (hl : (Ty.msg obf1 fs1).LabelsOk) (hd : (Ty.msg obf1 fs1).NamesOk)
    (hw : (Ty.msg obf1 fs1).Writable (fun b => b ≠ 0) (params.getD {}).ensureAscii o1) (hn : (Ty.msg obf1 fs1).NoNulls o1)
    (hl2 : (Ty.msg obf2 fs2).LabelsOk) (hd2 : (Ty.msg obf2 fs2).NamesOk)
    (hwr2 : (Ty.msg obf2 fs2).Writable (fun b => b ≠ 0) (params.getD {}).ensureAscii o2) (hn2 : (Ty.msg obf2 fs2).NoNulls o2)
    (hx : x ≠ 10) (hw1 : Ws w) (hw2 : Ws w') :
    ∃ r1 r2, readTwo (.msg obf1 fs1) (.msg obf2 fs2)
        ⟨(serialize (.msg obf1 fs1) params o1).out ++ (w ++ (c!"," :: x :: ((serialize (.msg obf2 fs2) params o2).out ++ w'))), false, sk⟩ =
        some (r1, r2, ⟨[], true, sk⟩) ∧
      r1.ret = true ∧ r1.obj = (Ty.msg obf1 fs1).norm (params.getD {}).serializeNull o1 ∧
      r2.ret = true ∧ r2.obj = (Ty.msg obf2 fs2).norm (params.getD {}).serializeNull o2 := by
  obtain ⟨-, hj⟩ := serialize_text lexOk_wide (.msg obf1 fs1) params o1 hl hw
  obtain ⟨-, hj2⟩ := serialize_text lexOk_wide (.msg obf2 fs2) params o2 hl2 hwr2
  have hab := Ty.absorb_toJ (params.getD {}).serializeNull (.msg obf1 fs1) o1 (Ty.NamesOk.dispatch _ hd) hn
  have hab2 := Ty.absorb_toJ (params.getD {}).serializeNull (.msg obf2 fs2) o2 (Ty.NamesOk.dispatch _ hd2) hn2
  have hok : ((Ty.msg obf1 fs1).absorb ((Ty.msg obf1 fs1).toJ (params.getD {}).serializeNull o1) (Ty.msg obf1 fs1).new).1 = .ok := by
    rw [hab]; rfl
  have hok2 : ((Ty.msg obf2 fs2).absorb ((Ty.msg obf2 fs2).toJ (params.getD {}).serializeNull o2) (Ty.msg obf2 fs2).new).1 = .ok := by
    rw [hab2]; rfl
  obtain ⟨p1, hr1⟩ := left_behind (.msg obf1 fs1)
    ⟨(serialize (.msg obf1 fs1) params o1).out ++ (w ++ (c!"," :: x :: ((serialize (.msg obf2 fs2) params o2).out ++ w'))), false, sk⟩ rfl none
    (Ty.msg obf1 fs1).new (w := []) (rest := w ++ (c!"," :: x :: ((serialize (.msg obf2 fs2) params o2).out ++ w')))
    (more := x :: ((serialize (.msg obf2 fs2) params o2).out ++ w')) rfl Ws.nil hj (by unfold Ty.toJ; trivial) hok
    (LexTo.ws hw1 (LexTo.comma _))
  rw [List.dropWhile_cons_of_neg (by simpa using hx)] at hr1
  obtain ⟨id, val, he⟩ := ws_lex hw2
  obtain ⟨p2, hr2⟩ := left_behind (.msg obf2 fs2)
    ⟨(serialize (.msg obf2 fs2) params o2).out ++ w', false, sk⟩ rfl none (Ty.msg obf2 fs2).new (w := []) (rest := w') (more := []) rfl Ws.nil
    hj2 (by unfold Ty.toJ; trivial) hok2 he
  rw [hab] at hr1
  rw [hab2] at hr2
  refine ⟨⟨true, p1, (Ty.msg obf1 fs1).norm (params.getD {}).serializeNull o1⟩,
    ⟨true, p2, (Ty.msg obf2 fs2).norm (params.getD {}).serializeNull o2⟩, ?_, rfl, rfl, rfl, rfl⟩
  · unfold readTwo
    rw [hr1]
    simp only [List.isEmpty_cons, List.tail_cons]
    rw [hr2]
    rfl

/-- C68, the state of the stream: an object that ends where the stream ends is read, but leaves the stream in a failed state
(`if (!in)` is taken after a successful call). -/
theorem C68_last_fails_stream (obf : Bool) (fs : Fields) (params : Option Params) (o : fs.Den) (w : Bytes) (sk : Bool)
    (hl : (Ty.msg obf fs).LabelsOk) (hd : (Ty.msg obf fs).NamesOk)
    (hw : (Ty.msg obf fs).Writable (fun b => b ≠ 0) (params.getD {}).ensureAscii o) (hn : (Ty.msg obf fs).NoNulls o) (hww : Ws w) :
    ∃ p, deserializeStd (.msg obf fs) ⟨(serialize (.msg obf fs) params o).out ++ w, false, sk⟩ none (Ty.msg obf fs).new =
      some (⟨true, p, (Ty.msg obf fs).norm (params.getD {}).serializeNull o⟩, ⟨[], true, sk⟩) := by
  obtain ⟨-, hj⟩ := serialize_text lexOk_wide (.msg obf fs) params o hl hw
  have hab := Ty.absorb_toJ (params.getD {}).serializeNull (.msg obf fs) o (Ty.NamesOk.dispatch _ hd) hn
  have hok : ((Ty.msg obf fs).absorb ((Ty.msg obf fs).toJ (params.getD {}).serializeNull o) (Ty.msg obf fs).new).1 = .ok := by
    rw [hab]; rfl
  obtain ⟨id, val, he⟩ := ws_lex hww
  obtain ⟨p2, hr2⟩ := left_behind (.msg obf fs)
    ⟨(serialize (.msg obf fs) params o).out ++ w, false, sk⟩ rfl none (Ty.msg obf fs).new (w := []) (rest := w) (more := []) rfl Ws.nil
    hj (by unfold Ty.toJ; trivial) hok he
  rw [hab] at hr2
  exact ⟨p2, hr2⟩

/-- The claim fails for a type with nested, repeated, bytes, string and numeric fields, and with empty objects. -/
theorem C68_is_false : ¬ ∀ (t : Ty) (o : t.Den) (r1 r2 : DRes t.Den) (src : StdIn),
    readTwo t t ⟨(serialize t none o).out ++ (serialize t none o).out, false, true⟩ = some (r1, r2, src) →
    r1.ret = true → r2.ret = true := by
  intro h
  have h1 := h Demo.person Demo.alice
  obtain ⟨r1, r2, src, h2, h3, -, h4, -⟩ := C68_second_lost _ _ _ _ none Demo.alice Demo.alice [] [] true Demo.person_labels
    Demo.person_names (Demo.alice_writable false) Demo.alice_noNulls (by decide +kernel) Ws.nil Ws.nil
  simp only [List.nil_append, List.append_nil] at h2
  have h5 := h1 r1 r2 src h2 h3
  rw [h4] at h5
  cases h5

/-- Three objects in a stream: the first and the third are read. -/
example : (readTwo (.msg false .nil) (.msg false .nil) ⟨b!"{} {} {} ", false, true⟩).map (fun r => (r.1.ret, r.2.1.ret)) = some (true, true) ∧
    (readTwo (.msg false .nil) (.msg false .nil) ⟨b!"{} {}", false, true⟩).map (fun r => (r.1.ret, r.2.1.ret)) = some (true, false) := by
  decide +kernel

end PG
