import Verif.Proofs.Finite
import Verif.Proofs.LineFeeds
import Verif.Spec.Access
/-
What cannot be read back: strings with a NUL byte, numbers that are not finite, null elements.
-/
set_option autoImplicit false
namespace PG
open IStream

/-! ### Strings with a NUL byte -/

/-- What the writers emit for strings: everything stands for itself except quotes, backslashes and line feeds. -/
def noFeed : Lexis where
  str := StrChars (fun b => b ≠ 10 ∧ b ≠ c!"\"" ∧ b ≠ c!"\\") (fun cp => 0x80 ≤ cp)
  num := SloppyNum

theorem lexOk_noFeed : LexOk noFeed (fun _ => True) where
  ex := ⟨_, _, rfl, fun _ _ h => ⟨(hasShort_false h).2.2, (hasShort_false h).1, (hasShort_false h).2.1⟩, fun b h => ⟨by
    rintro rfl
    revert h
    unfold rfcRaw
    decide, h.2⟩, fun _ h => h⟩
  num _ h := h.sloppy

theorem utf8_no_zero {cp : Nat} (h1 : 0x80 ≤ cp) (h2 : cp < 0x110000) : (0 : Byte) ∉ utf8 cp := by
  have key : ∀ n : Nat, 0x80 ≤ n → n < 0x100 → (0 : Byte) ≠ UInt8.ofNat n := by
    intro n h1 h2 h
    have := congrArg UInt8.toNat h
    rw [UInt8.toNat_ofNat_of_lt' (by simpa using h2)] at this
    have z : UInt8.toNat 0 = 0 := rfl
    omega
  intro hb
  unfold utf8 at hb
  rw [if_neg (by omega)] at hb
  split at hb
  · simp only [List.mem_cons, List.not_mem_nil, or_false] at hb
    rcases hb with h | h <;> exact key _ (by omega) (by omega) h
  · split at hb
    · simp only [List.mem_cons, List.not_mem_nil, or_false] at hb
      rcases hb with h | h | h <;> exact key _ (by omega) (by omega) h
    · simp only [List.mem_cons, List.not_mem_nil, or_false] at hb
      rcases hb with h | h | h | h <;> exact key _ (by omega) (by omega) h

/-- The characters up to the first NUL byte. -/
theorem chars_to_zero {body s : Bytes} (h : noFeed.str body s) (h0 : (0 : Byte) ∈ s) :
    ∃ pre post s', body = pre ++ 0 :: post ∧ wide.str pre s' := by
  change StrChars _ _ body s at h
  induction h with
  | nil => cases h0
  | @raw b t c hb ht ih =>
    by_cases hz : b = 0
    · subst hz
      exact ⟨[], t, [], rfl, StrChars.nil⟩
    · obtain ⟨pre, post, s', rfl, h⟩ := ih ((List.mem_cons.mp h0).resolve_left fun h => hz h.symm)
      exact ⟨b :: pre, post, b :: s', rfl, StrChars.raw ⟨hz, hb⟩ h⟩
  | @esc e b t c he _ ih =>
    have hz : (0 : Byte) ≠ b := by
      simp only [shortEscapes, List.mem_cons, Prod.mk.injEq, List.not_mem_nil, or_false] at he
      rcases he with ⟨-, rfl⟩ | ⟨-, rfl⟩ | ⟨-, rfl⟩ | ⟨-, rfl⟩ | ⟨-, rfl⟩ | ⟨-, rfl⟩ | ⟨-, rfl⟩ | ⟨-, rfl⟩ <;> decide
    obtain ⟨pre, post, s', rfl, h⟩ := ih ((List.mem_cons.mp h0).resolve_left hz)
    exact ⟨_ :: e :: pre, post, b :: s', rfl, StrChars.esc he h⟩
  | @uni x cp t c hh hs hu _ ih =>
    obtain ⟨pre, post, s', rfl, h⟩ := ih ((List.mem_append.mp h0).resolve_left (utf8_no_zero hu (Nat.lt_trans hh.lt (by decide))))
    exact ⟨_ :: _ :: (x ++ pre), post, _, by simp, StrChars.uni hh hs hu h⟩
  | @pair x y hi lo t c h1 h2 a1 a2 a3 a4 _ ih =>
    obtain ⟨pre, post, s', rfl, h⟩ := ih ((List.mem_append.mp h0).resolve_left (utf8_no_zero (by omega) (by omega)))
    exact ⟨_ :: _ :: (x ++ _ :: _ :: (y ++ pre)), post, _, by simp, StrChars.pair h1 h2 a1 a2 a3 a4 h⟩

theorem lexString_zero {body content : Bytes} (h : StrChars wideRaw (fun cp => 0x80 ≤ cp) body content) (rest : Bytes) :
    ∀ {x : Byte}, x ≠ 10 → ∀ (l c : Nat) (value : Bytes), ∃ l' c',
      lexString (skip (x :: (body ++ 0 :: rest)) l c) 0 value = (none, skip (0 :: rest) l' c') := by
  induction h with
  | nil =>
    intro x hx l c value
    refine ⟨l, c + 1, ?_⟩
    rw [lexString, dif_pos (skip_eof hx _ _ _)]
    simp only [List.nil_append, skip_next hx, skip_peek (b := 0) (by decide)]
    rw [if_neg (by decide), if_neg (by decide), if_pos trivial]
  | @raw b t cnt hr _ ih =>
    intro x hx l c value
    obtain ⟨h0, h10, h34, h92⟩ := hr
    obtain ⟨l', c', ih⟩ := ih h10 l (c + 1) (value ++ [b])
    refine ⟨l', c', ?_⟩
    rw [lexString, dif_pos (skip_eof hx _ _ _)]
    simp only [List.cons_append, skip_next hx, skip_peek h10]
    rw [if_neg h34, if_neg h92, if_neg h0, ih]
  | @esc e b t cnt he _ ih =>
    intro x hx l c value
    obtain ⟨h1, h10, hu⟩ := simpleEscape_of he
    obtain ⟨l', c', ih⟩ := ih h10 l (c + 1 + 1) (value ++ [b])
    refine ⟨l', c', ?_⟩
    rw [lexString, dif_pos (skip_eof hx _ _ _)]
    simp only [List.cons_append, skip_next hx, skip_peek (b := 92) (by decide), skip_next (b := 92) (by decide),
      skip_peek h10]
    rw [if_neg (by decide), if_pos trivial, if_neg hu, h1]
    simp only
    rw [ih]
  | @uni hx4 cp t cnt hh hs hcp _ ih =>
    intro x hx l c value
    obtain ⟨d, hd, c1, h1⟩ := lexHex_run hh (x := 117) (by decide) (t ++ 0 :: rest) l (c + 1 + 1)
    obtain ⟨l', c', ih⟩ := ih hd l c1 (value ++ utf8 cp)
    refine ⟨l', c', ?_⟩
    rw [lexString, dif_pos (skip_eof hx _ _ _)]
    simp only [List.cons_append, List.append_assoc, skip_next hx, skip_peek (b := 92) (by decide),
      skip_next (b := 92) (by decide), skip_peek (b := 117) (by decide)]
    rw [if_neg (by decide), if_pos trivial, if_pos trivial]
    simp only [h1, putCodeUnit_single value 0 hcp hh.lt hs]
    rw [ih]
  | @pair h1 h2 hi lo t cnt hh1 hh2 b1 b2 b3 b4 _ ih =>
    intro x hx l c value
    obtain ⟨d, hd, c1, e1⟩ := lexHex_run hh1 (x := 117) (by decide) (92 :: 117 :: (h2 ++ (t ++ 0 :: rest))) l (c + 1 + 1)
    obtain ⟨d2, hd2, c2, e2⟩ := lexHex_run hh2 (x := 117) (by decide) (t ++ 0 :: rest) l (c1 + 1 + 1)
    obtain ⟨l', c', ih⟩ := ih hd2 l c2 (value ++ utf8 (0x10000 + (hi - 0xD800) * 0x400 + (lo - 0xDC00)))
    refine ⟨l', c', ?_⟩
    rw [lexString, dif_pos (skip_eof hx _ _ _)]
    simp only [List.cons_append, List.append_assoc, skip_next hx, skip_peek (b := 92) (by decide),
      skip_next (b := 92) (by decide), skip_peek (b := 117) (by decide)]
    rw [if_neg (by decide), if_pos trivial, if_pos trivial]
    simp only [e1, putCodeUnit_lead value 0 b1 b2]
    rw [lexString, dif_pos (skip_eof hd _ _ _)]
    simp only [skip_next hd, skip_peek (b := 92) (by decide),
      skip_next (b := 92) (by decide), skip_peek (b := 117) (by decide)]
    rw [if_neg (by decide), if_pos trivial, if_pos trivial]
    simp only [e2, putCodeUnit_trail value b1 b2 b3 b4]
    rw [ih]

/-- A string with a NUL byte is no token. -/
theorem LexTo.zero {body content : Bytes} (h : wide.str body content) (rest : Bytes) :
    LexTo (c!"\"" :: (body ++ 0 :: rest)) .none [] (0 :: rest) := by
  intro l c
  obtain ⟨l', c', h⟩ := lexString_zero h rest (x := 34) (by decide) l c []
  rw [lex, dif_pos (skip_eof (by decide) _ _ _)]
  simp only [skip_peek (b := 34) (by decide)]
  refine ⟨(skip (34 :: (body ++ 0 :: rest)) l c).line, (skip (34 :: (body ++ 0 :: rest)) l c).col, l', c', ?_⟩
  unfold parseString
  rw [h]
  rfl

theorem breaks_string {body s : Bytes} (h : noFeed.str body s) (h0 : (0 : Byte) ∈ s) :
    Breaks (c!"\"" :: (body ++ [c!"\""])) := by
  intro rest k tz hd hk ha
  obtain ⟨pre, post, s', rfl, h1⟩ := chars_to_zero h h0
  simp only [List.cons_append, List.append_assoc] at ha
  obtain ⟨h2, -, -⟩ := ha.tok (LexTo.zero h1 _)
  refine ⟨by rw [h2]; decide, ?_⟩
  obtain ⟨k, rfl⟩ : ∃ k', k = k' + 1 := ⟨k - 1, by simp at hk; omega⟩
  unfold ignoreValue
  rw [h2]
  exact Tz.error_ne _ _

/-! ### Objects -/

theorem breaks_elems {α : Type} {wr : α → ErrInfo → WRes} {f : α → J} {G : α → Prop} {e : ErrInfo} : (xs : List α) →
    (∀ x ∈ xs, G x → ∃ b, wr x e = (.ok, b, e) ∧ JVal wide (f x) b) →
    (∀ x ∈ xs, ¬ G x → ∃ b, wr x e = (.ok, b, e) ∧ Breaks b) → (¬ ∀ x ∈ xs, G x) →
    ∃ b, writeElems wr xs e = (b, e) ∧ BreaksE b
  | [], _, _, hn => absurd (by simp) hn
  | [x], hg, hb, hn => by
    obtain ⟨b, h1, h2⟩ := hb x (by simp) (fun h => hn (by simpa using h))
    refine ⟨b, by simp [writeElems, h1], ?_⟩
    intro rest k tz hk ha
    obtain ⟨k, rfl⟩ : ∃ k', k = k' + 1 := ⟨k - 1, by omega⟩
    obtain ⟨h3, h4⟩ := h2 _ k tz (Delim.arre rest) (by omega) ha
    exact arrLoop_bad h3 h4
  | x :: y :: t, hg, hb, hn => by
    by_cases hx : G x
    · have hn' : ¬ ∀ z ∈ y :: t, G z := fun h => hn fun z hz => by
        rcases List.mem_cons.mp hz with rfl | hz
        · exact hx
        · exact h z hz
      obtain ⟨b', h1, h2⟩ := breaks_elems (y :: t) (fun z hz => hg z (List.mem_cons_of_mem _ hz))
        (fun z hz => hb z (List.mem_cons_of_mem _ hz)) hn'
      obtain ⟨b, h4, h5⟩ := hg x (by simp) hx
      refine ⟨b ++ c!"," :: b', by simp [writeElems, h4, h1], ?_⟩
      intro rest k tz hk ha
      simp only [List.length_append, List.length_cons, List.append_assoc, List.cons_append] at hk ha
      obtain ⟨k, rfl⟩ : ∃ k', k = k' + 1 := ⟨k - 1, by omega⟩
      have hd : Delim (c!"," :: (b' ++ c!"]" :: rest)) := Delim.comma _
      obtain ⟨tz1, h6, h7⟩ := ignore_val (f x) (k := k) h5 hd (Follow.comma (w := []) Ws.nil _) (by omega) ha
      obtain ⟨h8, -, h9⟩ := h7.tok (LexTo.comma _)
      unfold ignoreArrLoop
      rw [if_neg (head_arre h5 hd ha), h6]
      simp only
      rw [expect_pos h8]
      exact h2 rest k tz1.next (by have := JVal_pos h5; omega) h9
    · obtain ⟨b, h1, h2⟩ := hb x (by simp) hx
      have hrest : ∃ b', writeElems wr (y :: t) e = (b', e) := by
        by_cases ht : ∀ z ∈ y :: t, G z
        · obtain ⟨b', h3, h4⟩ := writeElems_ok (L := wide) (wr := wr) (f := f) (xs := y :: t) (e := e)
            (fun z hz => hg z (List.mem_cons_of_mem _ hz) (ht z hz))
          exact ⟨b', h3⟩
        · obtain ⟨b', h3, -⟩ := breaks_elems (y :: t) (fun z hz => hg z (List.mem_cons_of_mem _ hz))
            (fun z hz => hb z (List.mem_cons_of_mem _ hz)) ht
          exact ⟨b', h3⟩
      obtain ⟨b', h3⟩ := hrest
      refine ⟨b ++ c!"," :: b', by simp [writeElems, h1, h3], ?_⟩
      intro rest k tz hk ha
      simp only [List.length_append, List.length_cons, List.append_assoc, List.cons_append] at hk ha
      obtain ⟨k, rfl⟩ : ∃ k', k = k' + 1 := ⟨k - 1, by omega⟩
      obtain ⟨h5, h6⟩ := h2 _ k tz (Delim.comma _) (by omega) ha
      exact arrLoop_bad h5 h6

mutual
/-- An object that cannot be written faithfully is written as something no reader gets past. -/
theorem Ty.write_breaks (p : Params) : (t : Ty) → (v : t.Den) → (e : ErrInfo) → t.LabelsOk →
    t.Strings (fun s => p.ensureAscii = true → Utf8 s) v → ¬ t.Writable (fun b => b ≠ 0) p.ensureAscii v →
    ∃ b, t.write p v e = (.ok, b, e) ∧ Breaks b
  | .num q, v, e, _, _, hn => by
    simp only [Ty.Writable, Classical.not_imp] at hn
    simp only [Ty.write, hn.1]
    exact ⟨_, rfl, (bad_number hn.2).breaks⟩
  | .raw q, v, e, _, _, hn => ⟨_, rfl, (bad_number hn).breaks⟩
  | .str, v, e, hl, hs, hn => by
    simp only [Ty.Writable, Classical.not_imp] at hn
    have hn' : (v.null && v.value.isEmpty) = false := hn.1
    obtain ⟨b, h1, h2⟩ := Ty.write_ok lexOk_noFeed p .str v e hl (fun he => ⟨fun _ _ => trivial, hs he⟩)
    rw [Ty.toJ, hn'] at h2
    obtain ⟨body, rfl, h2⟩ := h2
    refine ⟨_, h1, breaks_string h2 (Classical.byContradiction fun h0 => hn.2 ⟨fun b hb hz => h0 (hz ▸ hb), hs hn.1⟩)⟩
  | .bytes, v, e, _, _, hn => absurd trivial hn
  | .rep t, v, e, hl, hs, hn => by
    obtain ⟨b, h1, h2⟩ := breaks_elems (wr := t.write p) (f := t.toJ p.serializeNull)
      (G := t.Writable (fun b => b ≠ 0) p.ensureAscii) (e := e) v
      (fun x hx hg => Ty.write_ok lexOk_wide p t x e hl hg)
      (fun x hx hg => Ty.write_breaks p t x e hl (hs x hx) hg) hn
    refine ⟨c!"[" :: b ++ [c!"]"], by simp only [Ty.write, h1], ?_⟩
    intro rest k tz hd hk ha
    simp only [List.length_append, List.length_cons, List.length_nil, List.append_assoc, List.cons_append, List.nil_append] at hk ha
    obtain ⟨a1, -, a2⟩ := ha.tok (LexTo.arrs _)
    refine ⟨by rw [a1]; decide, ?_⟩
    obtain ⟨k, rfl⟩ : ∃ k', k = k' + 1 := ⟨k - 1, by omega⟩
    unfold ignoreValue
    rw [a1]
    exact h2 rest k tz.next (by omega) a2
  | .msg _ fs, v, e, hl, hs, hn => by
    obtain ⟨b, h1, h2⟩ := Fields.write_breaks p fs v true e hl hs hn
    refine ⟨c!"{" :: b ++ [c!"}"], by simp only [Ty.write, h1], ?_⟩
    intro rest k tz hd hk ha
    simp only [List.length_append, List.length_cons, List.length_nil, List.append_assoc, List.cons_append, List.nil_append] at hk ha
    obtain ⟨a1, -, a2⟩ := ha.tok (LexTo.objs _)
    refine ⟨by rw [a1]; decide, ?_⟩
    obtain ⟨k, rfl⟩ : ∃ k', k = k' + 1 := ⟨k - 1, by omega⟩
    unfold ignoreValue
    rw [a1]
    simp only [if_true] at h2
    exact h2 rest k tz.next (by omega) a2

theorem Fields.write_breaks (p : Params) : (fs : Fields) → (v : fs.Den) → (first : Bool) → (e : ErrInfo) → fs.LabelsOk →
    fs.Strings (fun s => p.ensureAscii = true → Utf8 s) v → ¬ fs.Writable (fun b => b ≠ 0) p.ensureAscii v →
    ∃ b, fs.write p v first e = (b, e) ∧ (if first then BreaksM b else ∃ r, b = c!"," :: r ∧ BreaksM r)
  | .nil, _, _, _, _, _, hn => absurd trivial hn
  | .cons f t rest, v, first, e, hl, hs, hn => by
    unfold Fields.LabelsOk at hl
    unfold Fields.Strings at hs
    unfold Fields.Writable at hn
    unfold Fields.write
    cases hf : f.transient with
    | true =>
      simp only [if_true]
      exact Fields.write_breaks p rest v.2 first e hl.2.2 hs.2 (fun h => hn ⟨fun h' => absurd h' (by rw [hf]; decide), h⟩)
    | false =>
      simp only [Bool.false_eq_true, if_false]
      split
      · have hlab := label_lex lexOk_wide (hl.1 hf)
        have hrest : ∃ s, rest.write p v.2 false e = (s, e) ∧ (s = [] ∨ ∃ r, s = c!"," :: r) ∧
            (¬ rest.Writable (fun b => b ≠ 0) p.ensureAscii v.2 → ∃ r, s = c!"," :: r ∧ BreaksM r) := by
          have hc := Fields.write_comma p rest v.2 e
          by_cases hr : rest.Writable (fun b => b ≠ 0) p.ensureAscii v.2
          · obtain ⟨s, h1, h2⟩ := Fields.write_ok lexOk_wide p rest v.2 false e hl.2.2 hr
            exact ⟨s, h1, by rw [h1] at hc; exact hc, fun h => absurd hr h⟩
          · obtain ⟨s, h1, h2⟩ := Fields.write_breaks p rest v.2 false e hl.2.2 hs.2 hr
            simp only [Bool.false_eq_true, if_false] at h2
            obtain ⟨r, h4, h5⟩ := h2
            exact ⟨s, h1, .inr ⟨r, h4⟩, fun _ => ⟨r, h4, h5⟩⟩
        obtain ⟨s, h1, h3, h4⟩ := hrest
        have hval : ∃ b, t.write p v.1 e = (.ok, b, e) ∧
            BreaksM (c!"\"" :: (f.wlabel ++ c!"\"" :: c!":" :: (b ++ s))) := by
          by_cases hv : t.Writable (fun b => b ≠ 0) p.ensureAscii v.1
          · obtain ⟨b, h5, h6⟩ := Ty.write_ok lexOk_wide p t v.1 e hl.2.1 hv
            obtain ⟨r, rfl, h7⟩ := h4 (fun h => hn ⟨fun _ => hv, h⟩)
            refine ⟨b, h5, ?_⟩
            intro tail k tz hk ha
            simp only [List.length_append, List.length_cons, List.append_assoc, List.cons_append] at hk ha
            obtain ⟨k, rfl⟩ : ∃ k', k = k' + 1 := ⟨k - 1, by omega⟩
            obtain ⟨a1, tz1, a2, a3⟩ := objLoop_member (k := k) hlab ha
            obtain ⟨tz2, a4, a5⟩ := ignore_val _ (k := k) h6 (Delim.comma _) (Follow.comma (w := []) Ws.nil _) (by omega) a2
            obtain ⟨a6, -, a7⟩ := a5.tok (LexTo.comma _)
            rw [a3, a4]
            simp only
            rw [expect_pos a6]
            exact h7 tail k tz2.next (by omega) a7
          · obtain ⟨b, h5, h6⟩ := Ty.write_breaks p t v.1 e hl.2.1 (hs.1 hf) hv
            refine ⟨b, h5, ?_⟩
            intro tail k tz hk ha
            simp only [List.length_append, List.length_cons, List.append_assoc, List.cons_append] at hk ha
            obtain ⟨k, rfl⟩ : ∃ k', k = k' + 1 := ⟨k - 1, by omega⟩
            obtain ⟨a1, tz1, a2, a3⟩ := objLoop_member (k := k) hlab ha
            have hd : Delim (s ++ c!"}" :: tail) := by
              rcases h3 with rfl | ⟨r, rfl⟩
              · exact Delim.obje _
              · exact Delim.comma _
            obtain ⟨-, a4⟩ := h6 _ k tz1 hd (by omega) a2
            rw [a3]
            generalize ignoreValue k tz1 = x at a4
            obtain ⟨r, tz'⟩ := x
            cases r <;> first | exact absurd rfl a4 | exact a4
        obtain ⟨b, h5, h6⟩ := hval
        simp only [h5, h1]
        cases first with
        | true => exact ⟨_, rfl, by simpa using h6⟩
        | false => exact ⟨_, rfl, by simpa using h6⟩
      · rename_i hw
        have he : t.empty v.1 = true := by
          cases h : t.empty v.1 with
          | true => rfl
          | false => rw [h] at hw; simp at hw
        exact Fields.write_breaks p rest v.2 first e hl.2.2 hs.2 (fun h => hn ⟨fun _ => (Ty.writable_iff _ _ t v.1).mpr
          ⟨Ty.strings_of_empty t v.1 he, Ty.finite_of_empty t v.1 he⟩, h⟩)
end

/-! ### Null elements -/

theorem absorbElems_bad {α β : Type} {f : J → RC × α} {g : β → J} : (xs : List β) → (v : List α) →
    (∃ x ∈ xs, (f (g x)).1 ≠ .ok) → (absorbElems f (elemsToJ g xs) v).1 = .error
  | [], _, h => by simp at h
  | x :: xs, v, h => by
    unfold elemsToJ absorbElems
    cases hx : f (g x) with
    | mk r y =>
      cases r with
      | ok =>
        refine absorbElems_bad xs _ ?_
        obtain ⟨z, hz, h⟩ := h
        rcases List.mem_cons.mp hz with rfl | hz
        · rw [hx] at h; exact absurd rfl h
        · exact ⟨z, hz, h⟩
      | nil => rfl
      | error => rfl
      | fuel => rfl

theorem absorb_null (t : Ty) (nulls : Bool) (x : t.Den) (h : t.isNull x = true) : (t.absorb (t.toJ nulls x) t.new).1 = .nil := by
  cases t with
  | num p =>
    have h : NumField.empty x = true := h
    cases p <;> simp [Ty.toJ, h, Ty.absorb, Prim.absorb]
  | str =>
    have h : (x.null && x.value.isEmpty) = true := h
    simp [Ty.toJ, h, Ty.absorb]
  | raw p => cases h
  | bytes => cases h
  | rep t => cases h
  | msg o fs => cases h

theorem absorbMembers_bad {α : Type} {f : Bytes → J → α → RC × α} : (ms : JM) → (v : α) →
    (∃ k j, (k, j) ∈ ms.toList ∧ ∀ w, (f k j w).1 = .error) → (absorbMembers f ms v).1 = .error
  | .nil, _, ⟨_, _, h, _⟩ => by cases h
  | .cons k j t, v, ⟨k', j', h, hb⟩ => by
    unfold absorbMembers
    cases hx : f k j v with
    | mk r y =>
      have rest : (k', j') ∈ t.toList → (absorbMembers f t y).1 = .error := fun h' => absorbMembers_bad t y ⟨k', j', h', hb⟩
      rcases List.mem_cons.mp h with h | h
      · injection h with h1 h2
        subst h1 h2
        have := hb v
        rw [hx] at this
        simp only at this
        subst this
        rfl
      · cases r with
        | ok => exact rest h
        | nil => exact rest h
        | error => rfl
        | fuel => rfl

theorem nonulls_of_empty : (t : Ty) → (v : t.Den) → t.empty v = true → t.NoNulls v
  | .num _, _, _ => trivial
  | .raw _, _, _ => trivial
  | .str, _, _ => trivial
  | .bytes, _, _ => trivial
  | .rep t, v, h => by
    have h : List.isEmpty (α := t.Den) v = true := h
    have h := List.isEmpty_iff.mp h
    intro x hx
    rw [h] at hx
    cases hx
  | .msg _ fs, v, h => go fs v h
where
  go : (fs : Fields) → (v : fs.Den) → fs.empty v = true → fs.NoNulls v
  | .nil, _, _ => trivial
  | .cons _ t rest, v, h => by
    simp only [Fields.empty, Bool.and_eq_true] at h
    exact ⟨fun _ => nonulls_of_empty t v.1 h.1, go rest v.2 h.2⟩

mutual
/-- A null element makes the reader of the tree fail. -/
theorem Ty.absorb_bad (nulls : Bool) : (t : Ty) → (v w : t.Den) → t.DispatchOk → ¬ t.NoNulls v →
    (t.absorb (t.toJ nulls v) w).1 = .error
  | .num _, _, _, _, hn => absurd trivial hn
  | .raw _, _, _, _, hn => absurd trivial hn
  | .str, _, _, _, hn => absurd trivial hn
  | .bytes, _, _, _, hn => absurd trivial hn
  | .rep t, v, w, hd, hn => by
    unfold Ty.toJ Ty.absorb
    refine absorbElems_bad v w ?_
    obtain ⟨x, hx⟩ := Classical.not_forall.mp hn
    obtain ⟨hx, hb⟩ := Classical.not_imp.mp hx
    refine ⟨x, hx, ?_⟩
    by_cases h0 : t.isNull x = true
    · rw [absorb_null t nulls x h0]; decide
    · rw [Ty.absorb_bad nulls t x t.new hd (fun h => hb ⟨by simpa using h0, h⟩)]; decide
  | .msg obf fs, v, w, hd, hn => by
    unfold Ty.toJ Ty.absorb
    refine absorbMembers_bad _ w ?_
    obtain ⟨i, lab, j, h1, h2, h3⟩ := Fields.absorb_bad nulls fs v hd.2 hn
    refine ⟨lab, j, h1, fun u => ?_⟩
    simp only [hd.1 i lab h2]
    exact h3 u
theorem Fields.absorb_bad (nulls : Bool) : (fs : Fields) → (v : fs.Den) → fs.DispatchOk → ¬ fs.NoNulls v →
    ∃ i lab j, (lab, j) ∈ (fs.toJ nulls v).toList ∧ fs.labels[i]? = some lab ∧ ∀ w, (fs.absorbAt i j w).1 = .error
  | .nil, _, _, hn => absurd trivial hn
  | .cons f t rest, v, hd, hn => by
    unfold Fields.NoNulls at hn
    cases hf : f.transient with
    | true =>
      obtain ⟨i, lab, j, h1, h2, h3⟩ := Fields.absorb_bad nulls rest v.2 hd.2 (fun h => hn ⟨fun h' => (by rw [hf] at h'; cases h'), h⟩)
      refine ⟨i, lab, j, ?_, ?_, fun w => ?_⟩
      · simpa only [Fields.toJ, hf, if_true] using h1
      · simpa only [Fields.labels, hf, if_true] using h2
      · simpa only [Fields.absorbAt, hf, if_true] using h3 w.2
    | false =>
      by_cases ht : t.NoNulls v.1
      · obtain ⟨i, lab, j, h1, h2, h3⟩ := Fields.absorb_bad nulls rest v.2 hd.2 (fun h => hn ⟨fun _ => ht, h⟩)
        refine ⟨i + 1, lab, j, ?_, ?_, fun w => ?_⟩
        · simp only [Fields.toJ, hf, Bool.false_eq_true, if_false]
          split
          · exact List.mem_cons_of_mem _ h1
          · exact h1
        · simpa only [Fields.labels, hf, Bool.false_eq_true, if_false, List.getElem?_cons_succ] using h2
        · simpa only [Fields.absorbAt, hf, Bool.false_eq_true, if_false] using h3 w.2
      · have he : t.empty v.1 = false := by
          cases h : t.empty v.1 with
          | false => rfl
          | true => exact absurd (nonulls_of_empty t v.1 h) ht
        refine ⟨0, f.wlabel, t.toJ nulls v.1, ?_, ?_, fun w => ?_⟩
        · simp only [Fields.toJ, hf, Bool.false_eq_true, if_false, he, Bool.not_false, Bool.or_true, if_true]
          exact List.mem_cons_self ..
        · simp only [Fields.labels, hf, Bool.false_eq_true, if_false, List.getElem?_cons_zero]
        · simpa only [Fields.absorbAt, hf, Bool.false_eq_true, if_false] using Ty.absorb_bad nulls t v.1 w.1 hd.1 ht
end

end PG
