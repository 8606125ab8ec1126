import Verif.Proofs.Survive
import Verif.Props.Text
import Verif.Props.Finite
/-
JSON texts (RFC 8259) with escapes of characters below U+0080.
-/
set_option autoImplicit false
namespace PG
open IStream

/-- RFC 8259 without `\u` escapes of characters below U+0080 (which have no need of them, except for control characters). -/
def noLow : Lexis := ⟨StrChars rfcRaw (fun cp => 0x80 ≤ cp), RfcNum⟩

mutual
theorem JVal.mono {L L' : Lexis} (h1 : ∀ b s, L.str b s → L'.str b s) (h2 : ∀ l, L.num l → L'.num l) :
    (j : J) → ∀ {b : Bytes}, JVal L j b → JVal L' j b
  | .null, _, h => h
  | .bool true, _, h => h
  | .bool false, _, h => h
  | .num _, _, h => ⟨h.1, h2 _ h.2⟩
  | .str _, _, ⟨body, e, h⟩ => ⟨body, e, h1 _ _ h⟩
  | .arr xs, _, ⟨inner, e, h⟩ => ⟨inner, e, JElems.mono h1 h2 xs h⟩
  | .obj ms, _, ⟨inner, e, h⟩ => ⟨inner, e, JMembers.mono h1 h2 ms h⟩
theorem JElems.mono {L L' : Lexis} (h1 : ∀ b s, L.str b s → L'.str b s) (h2 : ∀ l, L.num l → L'.num l) :
    (xs : JL) → ∀ {b : Bytes}, JElems L xs b → JElems L' xs b
  | .nil, _, h => h
  | .cons j .nil, _, ⟨w, b, w', e, hw, hj, hw'⟩ => ⟨w, b, w', e, hw, JVal.mono h1 h2 j hj, hw'⟩
  | .cons j (.cons j' t), _, ⟨w, b, w', r, e, hw, hj, hw', hr⟩ =>
    ⟨w, b, w', r, e, hw, JVal.mono h1 h2 j hj, hw', JElems.mono h1 h2 (.cons j' t) hr⟩
theorem JMembers.mono {L L' : Lexis} (h1 : ∀ b s, L.str b s → L'.str b s) (h2 : ∀ l, L.num l → L'.num l) :
    (ms : JM) → ∀ {b : Bytes}, JMembers L ms b → JMembers L' ms b
  | .nil, _, h => h
  | .cons _ j .nil, _, ⟨w, kb, w1, w2, b, w', e, hw, hk, hw1, hw2, hj, hw'⟩ =>
    ⟨w, kb, w1, w2, b, w', e, hw, h1 _ _ hk, hw1, hw2, JVal.mono h1 h2 j hj, hw'⟩
  | .cons _ j (.cons k' j' t), _, ⟨w, kb, w1, w2, b, w', r, e, hw, hk, hw1, hw2, hj, hw', hr⟩ =>
    ⟨w, kb, w1, w2, b, w', r, e, hw, h1 _ _ hk, hw1, hw2, JVal.mono h1 h2 j hj, hw', JMembers.mono h1 h2 (.cons k' j' t) hr⟩
end

theorem noLow_wide {j : J} {b : Bytes} (h : JVal noLow j b) : JVal wide j b :=
  JVal.mono (fun _ _ h => StrChars.mono (fun _ => rfcRaw_wide) (fun _ h => h) h) (fun _ h => RfcNum.sloppy h) j h

theorem noLow_rfc {j : J} {b : Bytes} (h : JVal noLow j b) : JVal rfc j b :=
  JVal.mono (fun _ _ h => StrChars.mono (fun _ h => h) (fun _ _ => trivial) h) (L' := rfc) (fun _ (h : RfcNum _) => h) j h

/-- The characters up to the first escape of a character below U+0080. -/
theorem chars_to_low {body s : Bytes} (h : rfc.str body s) :
    noLow.str body s ∨ ∃ pre h4 cp post s', body = pre ++ c!"\\" :: c!"u" :: (h4 ++ post) ∧ wide.str pre s' ∧ Hex4 h4 cp ∧ cp < 0x80 := by
  change StrChars _ _ body s at h
  induction h with
  | nil => exact .inl StrChars.nil
  | @raw b t c hb ht ih =>
    rcases ih with ih | ⟨pre, h4, cp, post, s', rfl, h1, h2, h3⟩
    · exact .inl (StrChars.raw hb ih)
    · exact .inr ⟨b :: pre, h4, cp, post, _, rfl, StrChars.raw (rfcRaw_wide hb) h1, h2, h3⟩
  | @esc e b t c he _ ih =>
    rcases ih with ih | ⟨pre, h4, cp, post, s', rfl, h1, h2, h3⟩
    · exact .inl (StrChars.esc he ih)
    · exact .inr ⟨_ :: e :: pre, h4, cp, post, _, rfl, StrChars.esc he h1, h2, h3⟩
  | @uni x cp t c hh hs hu _ ih =>
    by_cases hl : 0x80 ≤ cp
    · rcases ih with ih | ⟨pre, h4, cp', post, s', rfl, h1, h2, h3⟩
      · exact .inl (StrChars.uni hh hs hl ih)
      · exact .inr ⟨_ :: _ :: (x ++ pre), h4, cp', post, _, by simp, StrChars.uni hh hs hl h1, h2, h3⟩
    · exact .inr ⟨[], x, cp, t, [], rfl, StrChars.nil, hh, by omega⟩
  | @pair x y hi lo t c h1 h2 a1 a2 a3 a4 _ ih =>
    rcases ih with ih | ⟨pre, h4, cp', post, s', rfl, h5, h6, h7⟩
    · exact .inl (StrChars.pair h1 h2 a1 a2 a3 a4 ih)
    · exact .inr ⟨_ :: _ :: (x ++ _ :: _ :: (y ++ pre)), h4, cp', post, _, by simp, StrChars.pair h1 h2 a1 a2 a3 a4 h5, h6, h7⟩

/-- A string with such an escape is no token. -/
theorem At.low {tz : Tz} {pre s h4 post : Bytes} {cp : Nat} (h : wide.str pre s) (hh : Hex4 h4 cp) (hcp : cp < 0x80)
    (ha : At tz (c!"\"" :: (pre ++ c!"\\" :: c!"u" :: (h4 ++ post)))) : tz.cur.id = .none := by
  obtain ⟨l, c, ha⟩ := ha
  have hlex : (lex (skip (c!"\"" :: (pre ++ c!"\\" :: c!"u" :: (h4 ++ post))) l c)).1.id = .none := by
    rw [lex, dif_pos (skip_eof (by decide) _ _ _)]
    simp only [skip_peek (b := 34) (by decide)]
    show (parseString _).1.id = .none
    unfold parseString
    obtain ⟨y, hy, l', c', hp⟩ := lexString_prefix h (c!"\\" :: c!"u" :: (h4 ++ post)) (x := 34) (by decide) l c []
    obtain ⟨d, hd, c1, h1⟩ := lexHex_run hh (x := 117) (by decide) post l' (c' + 1 + 1)
    rw [hp, lexString, dif_pos (skip_eof hy _ _ _)]
    simp only [skip_next hy, skip_peek (b := 92) (by decide),
      skip_next (b := 92) (by decide), skip_peek (b := 117) (by decide)]
    rw [if_neg (by decide), if_pos trivial, if_pos trivial]
    simp only [h1, putCodeUnit_low _ _ hcp]
  rw [ha] at hlex
  exact hlex

theorem breaks_low {body s : Bytes} (h : rfc.str body s) (hn : ¬ noLow.str body s) (rest : Bytes) {tz : Tz}
    (ha : At tz (c!"\"" :: (body ++ c!"\"" :: rest))) : tz.cur.id = .none := by
  obtain ⟨pre, h4, cp, post, s', rfl, h1, h2, h3⟩ := (chars_to_low h).resolve_left hn
  simp only [List.append_assoc, List.cons_append] at ha
  exact At.low h1 h2 h3 ha

theorem objLoop_badKey {k : Nat} {tz : Tz} (h : tz.cur.id = .none) : (ignoreObjLoop (k + 1) tz).1 ≠ .ok := by
  unfold ignoreObjLoop
  rw [if_neg (by rw [h]; decide), expect_neg (by rw [h]; decide)]
  exact Tz.error_ne _ _

mutual
/-- A JSON value either has no such escapes, or cannot be skipped. -/
theorem low_val : (j : J) → ∀ {b : Bytes}, JVal rfc j b → JVal noLow j b ∨ Breaks b
  | .null, _, h => .inl h
  | .bool true, _, h => .inl h
  | .bool false, _, h => .inl h
  | .num _, _, h => .inl h
  | .str s, b, ⟨body, e, h⟩ => by
    by_cases hn : noLow.str body s
    · exact .inl ⟨body, e, hn⟩
    · subst e
      refine .inr fun rest k tz _ hk ha => ?_
      simp only [List.append_assoc, List.cons_append, List.nil_append] at ha
      have h1 := breaks_low h hn rest ha
      refine ⟨by rw [h1]; decide, ?_⟩
      obtain ⟨k, rfl⟩ : ∃ k', k = k' + 1 := ⟨k - 1, by simp at hk; omega⟩
      unfold ignoreValue
      rw [h1]
      exact Tz.error_ne _ _
  | .arr xs, b, ⟨inner, e, h⟩ => by
    rcases low_elems xs h with h | h
    · exact .inl ⟨inner, e, h⟩
    · subst e
      refine .inr fun rest k tz _ hk ha => ?_
      simp only [List.length_append, List.length_cons, List.length_nil, List.append_assoc, List.cons_append, List.nil_append] at hk ha
      obtain ⟨a1, -, a2⟩ := ha.tok (LexTo.arrs _)
      refine ⟨by rw [a1]; decide, ?_⟩
      obtain ⟨k, rfl⟩ : ∃ k', k = k' + 1 := ⟨k - 1, by omega⟩
      unfold ignoreValue
      rw [a1]
      exact h rest k tz.next (by omega) a2
  | .obj ms, b, ⟨inner, e, h⟩ => by
    rcases low_members ms h with h | h
    · exact .inl ⟨inner, e, h⟩
    · subst e
      refine .inr fun rest k tz _ hk ha => ?_
      simp only [List.length_append, List.length_cons, List.length_nil, List.append_assoc, List.cons_append, List.nil_append] at hk ha
      obtain ⟨a1, -, a2⟩ := ha.tok (LexTo.objs _)
      refine ⟨by rw [a1]; decide, ?_⟩
      obtain ⟨k, rfl⟩ : ∃ k', k = k' + 1 := ⟨k - 1, by omega⟩
      unfold ignoreValue
      rw [a1]
      exact h rest k tz.next (by omega) a2
theorem low_elems : (xs : JL) → ∀ {b : Bytes}, JElems rfc xs b → JElems noLow xs b ∨ BreaksE b
  | .nil, _, h => .inl h
  | .cons j .nil, _, ⟨w, b, w', e, hw, hj, hw'⟩ => by
    rcases low_val j hj with h | h
    · exact .inl ⟨w, b, w', e, hw, h, hw'⟩
    · subst e
      refine .inr fun rest k tz hk ha => ?_
      simp only [List.append_assoc, List.length_append] at ha hk
      obtain ⟨k, rfl⟩ : ∃ k', k = k' + 1 := ⟨k - 1, by omega⟩
      obtain ⟨h3, h4⟩ := h _ k tz (Delim.ws hw' (Delim.arre rest)) (by omega) (ha.dropWs hw)
      exact arrLoop_bad h3 h4
  | .cons j (.cons j' t), _, ⟨w, b, w', r, e, hw, hj, hw', hr⟩ => by
    rcases low_val j hj with h | h
    · rcases low_elems (.cons j' t) hr with hr | hr
      · exact .inl ⟨w, b, w', r, e, hw, h, hw', hr⟩
      · subst e
        refine .inr fun rest k tz hk ha => ?_
        simp only [List.append_assoc, List.length_append, List.cons_append, List.length_cons] at ha hk
        obtain ⟨k, rfl⟩ : ∃ k', k = k' + 1 := ⟨k - 1, by omega⟩
        have ha := ha.dropWs hw
        have hd : Delim (w' ++ c!"," :: (r ++ c!"]" :: rest)) := Delim.ws hw' (Delim.comma _)
        obtain ⟨tz1, h1, h2⟩ := ignore_val j (k := k) (noLow_wide h) hd (Follow.comma hw' _) (by omega) ha
        obtain ⟨h3, -, h4⟩ := (h2.dropWs hw').tok (LexTo.comma _)
        unfold ignoreArrLoop
        rw [if_neg (head_arre (noLow_wide h) hd ha), h1]
        simp only
        rw [expect_pos h3]
        exact hr rest k tz1.next (by have := JVal_pos (noLow_wide h); omega) h4
    · subst e
      refine .inr fun rest k tz hk ha => ?_
      simp only [List.append_assoc, List.length_append, List.cons_append, List.length_cons] at ha hk
      obtain ⟨k, rfl⟩ : ∃ k', k = k' + 1 := ⟨k - 1, by omega⟩
      obtain ⟨h3, h4⟩ := h _ k tz (Delim.ws hw' (Delim.comma _)) (by omega) (ha.dropWs hw)
      exact arrLoop_bad h3 h4
theorem low_members : (ms : JM) → ∀ {b : Bytes}, JMembers rfc ms b → JMembers noLow ms b ∨ BreaksM b
  | .nil, _, h => .inl h
  | .cons key j .nil, _, ⟨w, kb, w1, w2, b, w', e, hw, hk, hw1, hw2, hj, hw'⟩ => by
    by_cases hn : noLow.str kb key
    · rcases low_val j hj with h | h
      · exact .inl ⟨w, kb, w1, w2, b, w', e, hw, hn, hw1, hw2, h, hw'⟩
      · subst e
        refine .inr fun rest k tz hk ha => ?_
        simp only [List.append_assoc, List.cons_append, List.length_append, List.length_cons] at ha hk
        obtain ⟨k, rfl⟩ : ∃ k', k = k' + 1 := ⟨k - 1, by omega⟩
        obtain ⟨a1, -, a2⟩ := (ha.dropWs hw).tok (LexTo.string (StrChars.mono (fun _ => rfcRaw_wide) (fun _ h => h) hn) _)
        obtain ⟨a3, -, a4⟩ := (a2.dropWs hw1).tok (LexTo.colon _)
        obtain ⟨-, a5⟩ := h _ k _ (Delim.ws hw' (Delim.obje rest)) (by omega) (a4.dropWs hw2)
        unfold ignoreObjLoop
        rw [if_neg (by rw [a1]; decide), expect_pos a1]
        simp only
        rw [expect_pos a3]
        simp only
        generalize ignoreValue k tz.next.next = x at a5
        obtain ⟨r, tz'⟩ := x
        cases r <;> first | exact absurd rfl a5 | exact a5
    · subst e
      refine .inr fun rest k tz hk' ha => ?_
      simp only [List.append_assoc, List.cons_append, List.length_append, List.length_cons] at ha hk'
      obtain ⟨k, rfl⟩ : ∃ k', k = k' + 1 := ⟨k - 1, by omega⟩
      exact objLoop_badKey (breaks_low hk hn _ (ha.dropWs hw))
  | .cons key j (.cons key' j' t), _, ⟨w, kb, w1, w2, b, w', r, e, hw, hk, hw1, hw2, hj, hw', hr⟩ => by
    by_cases hn : noLow.str kb key
    · rcases low_val j hj with h | h
      · rcases low_members (.cons key' j' t) hr with hr | hr
        · exact .inl ⟨w, kb, w1, w2, b, w', r, e, hw, hn, hw1, hw2, h, hw', hr⟩
        · subst e
          refine .inr fun rest k tz hk ha => ?_
          simp only [List.append_assoc, List.cons_append, List.length_append, List.length_cons] at ha hk
          obtain ⟨k, rfl⟩ : ∃ k', k = k' + 1 := ⟨k - 1, by omega⟩
          obtain ⟨a1, -, a2⟩ := (ha.dropWs hw).tok (LexTo.string (StrChars.mono (fun _ => rfcRaw_wide) (fun _ h => h) hn) _)
          obtain ⟨a3, -, a4⟩ := (a2.dropWs hw1).tok (LexTo.colon _)
          have hd : Delim (w' ++ c!"," :: (r ++ c!"}" :: rest)) := Delim.ws hw' (Delim.comma _)
          obtain ⟨tz1, h1, h2⟩ := ignore_val j (k := k) (noLow_wide h) hd (Follow.comma hw' _) (by omega) (a4.dropWs hw2)
          obtain ⟨h3, -, h4⟩ := (h2.dropWs hw').tok (LexTo.comma _)
          unfold ignoreObjLoop
          rw [if_neg (by rw [a1]; decide), expect_pos a1]
          simp only
          rw [expect_pos a3]
          simp only
          rw [h1]
          simp only
          rw [expect_pos h3]
          exact hr rest k tz1.next (by omega) h4
      · subst e
        refine .inr fun rest k tz hk ha => ?_
        simp only [List.append_assoc, List.cons_append, List.length_append, List.length_cons] at ha hk
        obtain ⟨k, rfl⟩ : ∃ k', k = k' + 1 := ⟨k - 1, by omega⟩
        obtain ⟨a1, -, a2⟩ := (ha.dropWs hw).tok (LexTo.string (StrChars.mono (fun _ => rfcRaw_wide) (fun _ h => h) hn) _)
        obtain ⟨a3, -, a4⟩ := (a2.dropWs hw1).tok (LexTo.colon _)
        obtain ⟨-, a5⟩ := h _ k _ (Delim.ws hw' (Delim.comma _)) (by omega) (a4.dropWs hw2)
        unfold ignoreObjLoop
        rw [if_neg (by rw [a1]; decide), expect_pos a1]
        simp only
        rw [expect_pos a3]
        simp only
        generalize ignoreValue k tz.next.next = x at a5
        obtain ⟨r, tz'⟩ := x
        cases r <;> first | exact absurd rfl a5 | exact a5
    · subst e
      refine .inr fun rest k tz hk' ha => ?_
      simp only [List.append_assoc, List.cons_append, List.length_append, List.length_cons] at ha hk'
      obtain ⟨k, rfl⟩ : ∃ k', k = k' + 1 := ⟨k - 1, by omega⟩
      exact objLoop_badKey (breaks_low hk hn _ (ha.dropWs hw))
end

end PG
