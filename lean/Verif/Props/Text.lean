import Verif.Props.RoundTrip
import Verif.Props.Members
import Verif.Props.Objects
/-
C18 (white space), C28 (string escapes), C51 (re-serialization).
-/
set_option autoImplicit false
namespace PG
open IStream

/-! ### C18 -/

/-- `bs` is the sequence of lexemes `ls` with white space before each of them and at the end. -/
def Spaced : List Bytes → Bytes → Prop
  | [], bs => Ws bs
  | l :: ls, bs => ∃ w r, bs = w ++ (l ++ r) ∧ Ws w ∧ Spaced ls r

mutual
/-- `ls` are the lexemes of a text of the value. -/
def JToks (L : Lexis) : J → List Bytes → Prop
  | .null, ls => ls = [b!"null"]
  | .bool true, ls => ls = [b!"true"]
  | .bool false, ls => ls = [b!"false"]
  | .num l, ls => ls = [l] ∧ L.num l
  | .str s, ls => ∃ body, ls = [c!"\"" :: (body ++ [c!"\""])] ∧ L.str body s
  | .arr xs, ls => ∃ inner, ls = b!"[" :: (inner ++ [b!"]"]) ∧ JElemToks L xs inner
  | .obj ms, ls => ∃ inner, ls = b!"{" :: (inner ++ [b!"}"]) ∧ JMemberToks L ms inner
/-- The lexemes between the brackets of an array. -/
def JElemToks (L : Lexis) : JL → List Bytes → Prop
  | .nil, ls => ls = []
  | .cons j .nil, ls => JToks L j ls
  | .cons j (.cons j' t), ls => ∃ a r, ls = a ++ b!"," :: r ∧ JToks L j a ∧ JElemToks L (.cons j' t) r
/-- The lexemes between the braces of an object. -/
def JMemberToks (L : Lexis) : JM → List Bytes → Prop
  | .nil, ls => ls = []
  | .cons k j .nil, ls => ∃ kb a, ls = (c!"\"" :: (kb ++ [c!"\""])) :: b!":" :: a ∧ L.str kb k ∧ JToks L j a
  | .cons k j (.cons k' j' t), ls => ∃ kb a r, ls = (c!"\"" :: (kb ++ [c!"\""])) :: b!":" :: (a ++ b!"," :: r) ∧ L.str kb k ∧
      JToks L j a ∧ JMemberToks L (.cons k' j' t) r
end

theorem spaced_one {l : Bytes} {us : List Bytes} {bs : Bytes} (h : Spaced ([l] ++ us) bs) :
    ∃ w r, bs = w ++ (l ++ r) ∧ Ws w ∧ Spaced us r := h

mutual
theorem toks_val {L : Lexis} : (j : J) → {ls us : List Bytes} → {bs : Bytes} → JToks L j ls → Spaced (ls ++ us) bs →
    ∃ w b rest, bs = w ++ (b ++ rest) ∧ Ws w ∧ JVal L j b ∧ Spaced us rest
  | .null, ls, us, bs, h, hs => by
    unfold JToks at h; subst h
    obtain ⟨w, r, rfl, hw, hr⟩ := spaced_one hs
    exact ⟨w, _, r, rfl, hw, by unfold JVal; rfl, hr⟩
  | .bool true, ls, us, bs, h, hs => by
    unfold JToks at h; subst h
    obtain ⟨w, r, rfl, hw, hr⟩ := spaced_one hs
    exact ⟨w, _, r, rfl, hw, by unfold JVal; rfl, hr⟩
  | .bool false, ls, us, bs, h, hs => by
    unfold JToks at h; subst h
    obtain ⟨w, r, rfl, hw, hr⟩ := spaced_one hs
    exact ⟨w, _, r, rfl, hw, by unfold JVal; rfl, hr⟩
  | .num l, ls, us, bs, h, hs => by
    unfold JToks at h; obtain ⟨rfl, hl⟩ := h
    obtain ⟨w, r, rfl, hw, hr⟩ := spaced_one hs
    exact ⟨w, _, r, rfl, hw, by unfold JVal; exact ⟨rfl, hl⟩, hr⟩
  | .str s, ls, us, bs, h, hs => by
    unfold JToks at h; obtain ⟨body, rfl, hl⟩ := h
    obtain ⟨w, r, rfl, hw, hr⟩ := spaced_one hs
    exact ⟨w, _, r, rfl, hw, by unfold JVal; exact ⟨body, rfl, hl⟩, hr⟩
  | .arr xs, ls, us, bs, h, hs => by
    unfold JToks at h; obtain ⟨inner, rfl, hl⟩ := h
    obtain ⟨w, r, rfl, hw, hr⟩ := hs
    obtain ⟨ib, rest, rfl, hi, hu⟩ := toks_elems xs hl (us := us) (by
      show Spaced (inner ++ b!"]" :: us) r
      have : (inner ++ [b!"]"]).append us = inner ++ b!"]" :: us := by
        show (inner ++ [b!"]"]) ++ us = _
        rw [List.append_assoc]; rfl
      rw [← this]; exact hr)
    refine ⟨w, c!"[" :: (ib ++ [c!"]"]), rest, ?_, hw, by unfold JVal; exact ⟨ib, rfl, hi⟩, hu⟩
    simp
  | .obj ms, ls, us, bs, h, hs => by
    unfold JToks at h; obtain ⟨inner, rfl, hl⟩ := h
    obtain ⟨w, r, rfl, hw, hr⟩ := hs
    obtain ⟨ib, rest, rfl, hi, hu⟩ := toks_members ms hl (us := us) (by
      show Spaced (inner ++ b!"}" :: us) r
      have : (inner ++ [b!"}"]).append us = inner ++ b!"}" :: us := by
        show (inner ++ [b!"}"]) ++ us = _
        rw [List.append_assoc]; rfl
      rw [← this]; exact hr)
    refine ⟨w, c!"{" :: (ib ++ [c!"}"]), rest, ?_, hw, by unfold JVal; exact ⟨ib, rfl, hi⟩, hu⟩
    simp
theorem toks_elems {L : Lexis} : (xs : JL) → {ls us : List Bytes} → {bs : Bytes} → JElemToks L xs ls →
    Spaced (ls ++ b!"]" :: us) bs → ∃ inner rest, bs = inner ++ c!"]" :: rest ∧ JElems L xs inner ∧ Spaced us rest
  | .nil, ls, us, bs, h, hs => by
    unfold JElemToks at h; subst h
    obtain ⟨w, r, rfl, hw, hr⟩ := hs
    exact ⟨w, r, rfl, by unfold JElems; exact hw, hr⟩
  | .cons j .nil, ls, us, bs, h, hs => by
    unfold JElemToks at h
    obtain ⟨w, b, rest, rfl, hw, hb, hr⟩ := toks_val j h hs
    obtain ⟨w2, r2, rfl, hw2, hr2⟩ := hr
    refine ⟨w ++ (b ++ w2), r2, by simp, ?_, hr2⟩
    unfold JElems; exact ⟨w, b, w2, rfl, hw, hb, hw2⟩
  | .cons j (.cons j' t), ls, us, bs, h, hs => by
    unfold JElemToks at h
    obtain ⟨a, r, rfl, ha, hr⟩ := h
    rw [List.append_assoc] at hs
    obtain ⟨w, b, rest, rfl, hw, hb, hrest⟩ := toks_val j ha hs
    obtain ⟨w2, r2, rfl, hw2, hr2⟩ := hrest
    obtain ⟨inner, rest, rfl, hi, hu⟩ := toks_elems (.cons j' t) hr hr2
    refine ⟨w ++ (b ++ (w2 ++ c!"," :: inner)), rest, by simp, ?_, hu⟩
    unfold JElems; exact ⟨w, b, w2, inner, rfl, hw, hb, hw2, hi⟩
theorem toks_members {L : Lexis} : (ms : JM) → {ls us : List Bytes} → {bs : Bytes} → JMemberToks L ms ls →
    Spaced (ls ++ b!"}" :: us) bs → ∃ inner rest, bs = inner ++ c!"}" :: rest ∧ JMembers L ms inner ∧ Spaced us rest
  | .nil, ls, us, bs, h, hs => by
    unfold JMemberToks at h; subst h
    obtain ⟨w, r, rfl, hw, hr⟩ := hs
    exact ⟨w, r, rfl, by unfold JMembers; exact hw, hr⟩
  | .cons k j .nil, ls, us, bs, h, hs => by
    unfold JMemberToks at h
    obtain ⟨kb, a, rfl, hk, ha⟩ := h
    obtain ⟨w, r, rfl, hw, w1, r1, rfl, hw1, hs⟩ := hs
    obtain ⟨w2, b, rest, rfl, hw2, hb, hr⟩ := toks_val j ha hs
    obtain ⟨w3, r3, rfl, hw3, hr3⟩ := hr
    refine ⟨w ++ (c!"\"" :: (kb ++ c!"\"" :: (w1 ++ c!":" :: (w2 ++ (b ++ w3))))), r3, by simp, ?_, hr3⟩
    unfold JMembers; exact ⟨w, kb, w1, w2, b, w3, rfl, hw, hk, hw1, hw2, hb, hw3⟩
  | .cons k j (.cons k' j' t), ls, us, bs, h, hs => by
    unfold JMemberToks at h
    obtain ⟨kb, a, r, rfl, hk, ha, hr⟩ := h
    obtain ⟨w, r0, rfl, hw, w1, r1, rfl, hw1, hs⟩ := hs
    have hs : Spaced ((a ++ b!"," :: r) ++ b!"}" :: us) r1 := hs
    rw [List.append_assoc] at hs
    obtain ⟨w2, b, rest, rfl, hw2, hb, hrest⟩ := toks_val j ha hs
    obtain ⟨w3, r3, rfl, hw3, hr3⟩ := hrest
    obtain ⟨inner, rest, rfl, hi, hu⟩ := toks_members (.cons k' j' t) hr hr3
    refine ⟨w ++ (c!"\"" :: (kb ++ c!"\"" :: (w1 ++ c!":" :: (w2 ++ (b ++ (w3 ++ c!"," :: inner)))))), rest, by simp, ?_, hu⟩
    unfold JMembers; exact ⟨w, kb, w1, w2, b, w3, inner, rfl, hw, hk, hw1, hw2, hb, hw3, hi⟩
end

theorem spaced_ws {w : Bytes} (hw : Ws w) : (ls : List Bytes) → {bs : Bytes} → Spaced ls bs → Spaced ls (w ++ bs)
  | [], bs, h => by
    intro b hb
    rcases List.mem_append.mp hb with h' | h'
    · exact hw b h'
    · exact h b h'
  | l :: ls, bs, h => by
    obtain ⟨w1, r, rfl, hw1, hr⟩ := h
    refine ⟨w ++ w1, r, by simp, ?_, hr⟩
    intro b hb
    rcases List.mem_append.mp hb with h' | h'
    · exact hw b h'
    · exact hw1 b h'

theorem spaced_cons {l : Bytes} {ls : List Bytes} {r : Bytes} (h : Spaced ls r) : Spaced (l :: ls) (l ++ r) :=
  ⟨[], r, rfl, Ws.nil, h⟩

mutual
/-- Every text of a value is a spacing of some sequence of lexemes. -/
theorem val_toks {L : Lexis} : (j : J) → {b : Bytes} → JVal L j b →
    ∃ ls, JToks L j ls ∧ ∀ (us : List Bytes) (r : Bytes), Spaced us r → Spaced (ls ++ us) (b ++ r)
  | .null, b, h => by
    unfold JVal at h; subst h
    exact ⟨_, by unfold JToks; rfl, fun us r hr => spaced_cons hr⟩
  | .bool true, b, h => by
    unfold JVal at h; subst h
    exact ⟨_, by unfold JToks; rfl, fun us r hr => spaced_cons hr⟩
  | .bool false, b, h => by
    unfold JVal at h; subst h
    exact ⟨_, by unfold JToks; rfl, fun us r hr => spaced_cons hr⟩
  | .num l, b, h => by
    unfold JVal at h; obtain ⟨rfl, hl⟩ := h
    exact ⟨[b], by unfold JToks; exact ⟨rfl, hl⟩, fun us r hr => spaced_cons hr⟩
  | .str s, b, h => by
    unfold JVal at h; obtain ⟨body, rfl, hl⟩ := h
    exact ⟨_, by unfold JToks; exact ⟨body, rfl, hl⟩, fun us r hr => spaced_cons hr⟩
  | .arr xs, b, h => by
    unfold JVal at h; obtain ⟨inner, rfl, hl⟩ := h
    obtain ⟨ls, h1, h2⟩ := elems_toks xs hl
    refine ⟨b!"[" :: (ls ++ [b!"]"]), by unfold JToks; exact ⟨ls, rfl, h1⟩, fun us r hr => ?_⟩
    have := spaced_cons (l := b!"[") (h2 us r hr)
    simpa using this
  | .obj ms, b, h => by
    unfold JVal at h; obtain ⟨inner, rfl, hl⟩ := h
    obtain ⟨ls, h1, h2⟩ := members_toks ms hl
    refine ⟨b!"{" :: (ls ++ [b!"}"]), by unfold JToks; exact ⟨ls, rfl, h1⟩, fun us r hr => ?_⟩
    have := spaced_cons (l := b!"{") (h2 us r hr)
    simpa using this
theorem elems_toks {L : Lexis} : (xs : JL) → {b : Bytes} → JElems L xs b →
    ∃ ls, JElemToks L xs ls ∧ ∀ (us : List Bytes) (r : Bytes), Spaced us r → Spaced (ls ++ b!"]" :: us) (b ++ c!"]" :: r)
  | .nil, b, h => by
    unfold JElems at h
    exact ⟨[], by unfold JElemToks; rfl, fun us r hr => spaced_ws h _ (spaced_cons (l := b!"]") hr)⟩
  | .cons j .nil, b, h => by
    unfold JElems at h
    obtain ⟨w, vb, w', rfl, hw, hv, hw'⟩ := h
    obtain ⟨ls, h1, h2⟩ := val_toks j hv
    refine ⟨ls, by unfold JElemToks; exact h1, fun us r hr => ?_⟩
    have := spaced_ws hw _ (h2 _ _ (spaced_ws hw' _ (spaced_cons (l := b!"]") hr)))
    simpa using this
  | .cons j (.cons j' t), b, h => by
    unfold JElems at h
    obtain ⟨w, vb, w', r0, rfl, hw, hv, hw', hr0⟩ := h
    obtain ⟨ls, h1, h2⟩ := val_toks j hv
    obtain ⟨ls', h3, h4⟩ := elems_toks (.cons j' t) hr0
    refine ⟨ls ++ b!"," :: ls', by unfold JElemToks; exact ⟨ls, ls', rfl, h1, h3⟩, fun us r hr => ?_⟩
    have := spaced_ws hw _ (h2 _ _ (spaced_ws hw' _ (spaced_cons (l := b!",") (h4 us r hr))))
    simpa using this
theorem members_toks {L : Lexis} : (ms : JM) → {b : Bytes} → JMembers L ms b →
    ∃ ls, JMemberToks L ms ls ∧ ∀ (us : List Bytes) (r : Bytes), Spaced us r → Spaced (ls ++ b!"}" :: us) (b ++ c!"}" :: r)
  | .nil, b, h => by
    unfold JMembers at h
    exact ⟨[], by unfold JMemberToks; rfl, fun us r hr => spaced_ws h _ (spaced_cons (l := b!"}") hr)⟩
  | .cons k j .nil, b, h => by
    unfold JMembers at h
    obtain ⟨w, kb, w1, w2, vb, w', rfl, hw, hk, hw1, hw2, hv, hw'⟩ := h
    obtain ⟨ls, h1, h2⟩ := val_toks j hv
    refine ⟨(c!"\"" :: (kb ++ [c!"\""])) :: b!":" :: ls, by unfold JMemberToks; exact ⟨kb, ls, rfl, hk, h1⟩, fun us r hr => ?_⟩
    have := spaced_ws hw _ (spaced_cons (l := c!"\"" :: (kb ++ [c!"\""])) (spaced_ws hw1 _ (spaced_cons (l := b!":")
      (spaced_ws hw2 _ (h2 _ _ (spaced_ws hw' _ (spaced_cons (l := b!"}") hr)))))))
    simpa using this
  | .cons k j (.cons k' j' t), b, h => by
    unfold JMembers at h
    obtain ⟨w, kb, w1, w2, vb, w', r0, rfl, hw, hk, hw1, hw2, hv, hw', hr0⟩ := h
    obtain ⟨ls, h1, h2⟩ := val_toks j hv
    obtain ⟨ls', h3, h4⟩ := members_toks (.cons k' j' t) hr0
    refine ⟨(c!"\"" :: (kb ++ [c!"\""])) :: b!":" :: (ls ++ b!"," :: ls'),
      by unfold JMemberToks; exact ⟨kb, ls, ls', rfl, hk, h1, h3⟩, fun us r hr => ?_⟩
    have := spaced_ws hw _ (spaced_cons (l := c!"\"" :: (kb ++ [c!"\""])) (spaced_ws hw1 _ (spaced_cons (l := b!":")
      (spaced_ws hw2 _ (h2 _ _ (spaced_ws hw' _ (spaced_cons (l := b!",") (h4 us r hr))))))))
    simpa using this
end

/-- C18.  Two ways of putting white space (spaces, tabs, carriage returns, newlines, in any amount) before, between and
after the lexemes of a document give the same result and the same object, for messages and arrays. -/
theorem C18_white_space (t : Ty) (j : J) (hj : (∃ ms, j = .obj ms) ∨ (∃ xs, j = .arr xs)) (ls : List Bytes) (h : JToks wide j ls)
    (d1 d2 : Bytes) (h1 : Spaced ls d1) (h2 : Spaced ls d2) (p1 p2 : Option Params) (v : t.Den) :
    outcome (deserialize t d1 p1 v) = outcome (deserialize t d2 p2 v) := by
  have doc : ∀ d, Spaced ls d → DocText j d := by
    intro d hd
    obtain ⟨w, b, rest, rfl, hw, hb, -⟩ := toks_val j (us := []) h (by simpa using hd)
    refine ⟨w, b, rest, rfl, hw, hb, ?_⟩
    rcases hj with ⟨ms, rfl⟩ | ⟨xs, rfl⟩ <;> trivial
  rw [doc_outcome t p1 v (doc d1 h1), doc_outcome t p2 v (doc d2 h2)]

/-- C18, every document (of the grammar) is such a spacing of lexemes, so the previous theorem speaks about all of them. -/
theorem C18_covers_all (j : J) (d : Bytes) (h : JText wide j d) : ∃ ls, JToks wide j ls ∧ Spaced ls d := by
  obtain ⟨w, b, w', rfl, hw, hb, hw'⟩ := h
  obtain ⟨ls, h1, h2⟩ := val_toks j hb
  have := spaced_ws hw _ (h2 [] w' hw')
  rw [List.append_nil] at this
  exact ⟨ls, h1, this⟩

/-- `{"number":5}` and `{ "number" :\n\t5 }` are spacings of the same lexemes. -/
example : JToks wide (.obj (.cons b!"number" (.num b!"5") .nil)) [b!"{", b!"\"number\"", b!":", b!"5", b!"}"] ∧
    Spaced [b!"{", b!"\"number\"", b!":", b!"5", b!"}"] b!"{\"number\":5}" ∧
    Spaced [b!"{", b!"\"number\"", b!":", b!"5", b!"}"] b!"{ \"number\" :\n\t5 }" := by
  refine ⟨⟨[b!"\"number\"", b!":", b!"5"], rfl, b!"number", [b!"5"], rfl, ?_, rfl, ⟨_, _, rfl, by decide⟩, by decide⟩, ?_, ?_⟩
  · exact label_lex lexOk_wide (by unfold rfcRaw; decide)
  · exact spaced_cons (spaced_cons (spaced_cons (spaced_cons (spaced_cons Ws.nil))))
  · exact spaced_cons (l := b!"{") (spaced_ws (w := b!" ") (by unfold Ws; decide) _ (spaced_cons (l := b!"\"number\"")
      (spaced_ws (w := b!" ") (by unfold Ws; decide) _ (spaced_cons (l := b!":") (spaced_ws (w := b!"\n\t") (by unfold Ws; decide) _
        (spaced_cons (l := b!"5") (spaced_ws (w := b!" ") (by unfold Ws; decide) _ (spaced_cons (l := b!"}") Ws.nil))))))))

/-! ### C28 -/

theorem StrChars.mono {raw raw' : Byte → Prop} {uni uni' : Nat → Prop} (h1 : ∀ b, raw b → raw' b) (h2 : ∀ c, uni c → uni' c)
    {body content : Bytes} (h : StrChars raw uni body content) : StrChars raw' uni' body content := by
  induction h with
  | nil => exact .nil
  | raw hb _ ih => exact .raw (h1 _ hb) ih
  | esc he _ ih => exact .esc he ih
  | uni hh hs hu _ ih => exact .uni hh hs (h2 _ hu) ih
  | pair a b c d e f _ ih => exact .pair a b c d e f ih

theorem rfcRaw_wide {b : Byte} (h : rfcRaw b) : wideRaw b := by
  obtain ⟨h1, h2, h3⟩ := h
  refine ⟨?_, ?_, h2, h3⟩ <;> (rintro rfl; revert h1; decide)

/-- C28, what is left of it: a string literal of RFC 8259 in which no `\u` escape denotes a character below U+0080 is
read as the bytes RFC 8259 assigns to it -- two-character escapes, `\u` escapes and surrogate pairs become UTF-8 --
and reading continues behind it.  Missing from the full statement: `\u0000` to `\u007f`, which are rejected
(`C28_low_escape_rejected`). -/
theorem C28_string_decoded_partial (body content rest : Bytes) (h : StrChars rfcRaw (fun cp => 0x80 ≤ cp) body content) (e : ErrInfo)
    (v : Bytes) : ∃ tz', stringRead (Tz.open' (IStream.open' (c!"\"" :: body ++ [c!"\""] ++ rest)) e) v = (.ok, tz', content) ∧
      At tz' rest :=
  string_read_text (h.mono (fun _ => rfcRaw_wide) (fun _ h => h)) _ v (At.open _ e)

/-- Reading the beginning of a string literal. -/
theorem lexString_prefix {body content : Bytes} (h : StrChars wideRaw (fun cp => 0x80 ≤ cp) body content) (rest : Bytes) :
    ∀ {x : Byte}, x ≠ 10 → ∀ (l c : Nat) (value : Bytes), ∃ y, y ≠ 10 ∧ ∃ l' c',
      lexString (skip (x :: (body ++ rest)) l c) 0 value = lexString (skip (y :: rest) l' c') 0 (value ++ content) := by
  induction h with
  | nil =>
    intro x hx l c value
    exact ⟨x, hx, l, c, by simp⟩
  | @raw b t cnt hr _ ih =>
    intro x hx l c value
    obtain ⟨h0, h10, h34, h92⟩ := hr
    obtain ⟨y, hy, l', c', ih⟩ := ih h10 l (c + 1) (value ++ [b])
    refine ⟨y, hy, l', c', ?_⟩
    rw [lexString, dif_pos (skip_eof hx _ _ _)]
    simp only [List.cons_append, skip_next hx, skip_peek h10]
    rw [if_neg h34, if_neg h92, if_neg h0, ih]
    simp
  | @esc e b t cnt he _ ih =>
    intro x hx l c value
    obtain ⟨h1, h10, hu⟩ := simpleEscape_of he
    obtain ⟨y, hy, l', c', ih⟩ := ih h10 l (c + 1 + 1) (value ++ [b])
    refine ⟨y, hy, l', c', ?_⟩
    rw [lexString, dif_pos (skip_eof hx _ _ _)]
    simp only [List.cons_append, skip_next hx, skip_peek (b := 92) (by decide), skip_next (b := 92) (by decide),
      skip_peek h10]
    rw [if_neg (by decide), if_pos trivial, if_neg hu, h1]
    simp only
    rw [ih]
    simp
  | @uni hx4 cp t cnt hh hs hcp _ ih =>
    intro x hx l c value
    obtain ⟨d, hd, c1, h1⟩ := lexHex_run hh (x := 117) (by decide) (t ++ rest) l (c + 1 + 1)
    obtain ⟨y, hy, l', c', ih⟩ := ih hd l c1 (value ++ utf8 cp)
    refine ⟨y, hy, l', c', ?_⟩
    rw [lexString, dif_pos (skip_eof hx _ _ _)]
    simp only [List.cons_append, List.append_assoc, skip_next hx, skip_peek (b := 92) (by decide),
      skip_next (b := 92) (by decide), skip_peek (b := 117) (by decide)]
    rw [if_neg (by decide), if_pos trivial, if_pos trivial]
    simp only [h1, putCodeUnit_single value 0 hcp hh.lt hs]
    rw [ih]
    simp
  | @pair h1 h2 hi lo t cnt hh1 hh2 b1 b2 b3 b4 _ ih =>
    intro x hx l c value
    obtain ⟨d, hd, c1, e1⟩ := lexHex_run hh1 (x := 117) (by decide) (92 :: 117 :: (h2 ++ (t ++ rest))) l (c + 1 + 1)
    obtain ⟨d2, hd2, c2, e2⟩ := lexHex_run hh2 (x := 117) (by decide) (t ++ rest) l (c1 + 1 + 1)
    obtain ⟨y, hy, l', c', ih⟩ := ih hd2 l c2 (value ++ utf8 (0x10000 + (hi - 0xD800) * 0x400 + (lo - 0xDC00)))
    refine ⟨y, hy, l', c', ?_⟩
    rw [lexString, dif_pos (skip_eof hx _ _ _)]
    simp only [List.cons_append, List.append_assoc, skip_next hx, skip_peek (b := 92) (by decide),
      skip_next (b := 92) (by decide), skip_peek (b := 117) (by decide)]
    rw [if_neg (by decide), if_pos trivial, if_pos trivial]
    simp only [e1, putCodeUnit_lead value 0 b1 b2]
    rw [lexString, dif_pos (skip_eof hd _ _ _)]
    simp only [skip_next hd, skip_peek (b := 92) (by decide),
      skip_next (b := 92) (by decide), skip_peek (b := 117) (by decide)]
    rw [if_neg (by decide), if_pos trivial, if_pos trivial]
    simp only [e2, putCodeUnit_trail value b1 b2 b3 b4]
    rw [ih]
    simp

theorem putCodeUnit_low {cp : Nat} (value : Bytes) (lead : Nat) (h : cp < 0x80) : putCodeUnit value lead cp = none := by
  unfold putCodeUnit
  simp only [Bool.and_eq_true, decide_eq_true_eq]
  rw [if_neg (by omega), if_neg (by omega), if_neg (by omega), if_neg (by omega)]

/-- C28 is false: a string literal with an escape of a character below U+0080 (such as the RFC 8259 literal `"\u0041"`)
is rejected, wherever the escape stands. -/
theorem C28_low_escape_rejected (before content h4 after : Bytes) (cp : Nat)
    (h : StrChars rfcRaw (fun cp => 0x80 ≤ cp) before content) (hh : Hex4 h4 cp) (hcp : cp < 0x80) (e : ErrInfo) (v : Bytes) :
    (stringRead (Tz.open' (IStream.open' (c!"\"" :: (before ++ c!"\\" :: c!"u" :: (h4 ++ after)))) e) v).1 = .error := by
  have hw := h.mono (raw' := wideRaw) (uni' := fun cp => 0x80 ≤ cp) (fun _ => rfcRaw_wide) (fun _ h => h)
  have hlex : ∀ l c, (lex (skip (c!"\"" :: (before ++ c!"\\" :: c!"u" :: (h4 ++ after))) l c)).1.id = .none := by
    intro l c
    rw [lex, dif_pos (skip_eof (by decide) _ _ _)]
    simp only [skip_peek (b := 34) (by decide)]
    show (parseString _).1.id = .none
    unfold parseString
    obtain ⟨y, hy, l', c', hp⟩ := lexString_prefix hw (c!"\\" :: c!"u" :: (h4 ++ after)) (x := 34) (by decide) l c []
    obtain ⟨d, hd, c1, h1⟩ := lexHex_run hh (x := 117) (by decide) after l' (c' + 1 + 1)
    rw [hp, lexString, dif_pos (skip_eof hy _ _ _)]
    simp only [skip_next hy, skip_peek (b := 92) (by decide),
      skip_next (b := 92) (by decide), skip_peek (b := 117) (by decide)]
    rw [if_neg (by decide), if_pos trivial, if_pos trivial]
    simp only [h1, putCodeUnit_low _ _ hcp]
  have hid : (Tz.open' (IStream.open' (c!"\"" :: (before ++ c!"\\" :: c!"u" :: (h4 ++ after)))) e).cur.id = .none := hlex 1 1
  unfold stringRead
  rw [hid, expect_neg (by rw [hid]; decide)]
  simp only [reduceCtorEq, if_false]
  exact error_fst _ _

/-- The witness as a document: valid JSON, rejected. -/
theorem C28_rejected_document : JVal rfc (.obj (.cons b!"street" (.str b!"A") .nil)) b!"{\"street\":\"\\u0041\"}" ∧
    outcome (deserialize Demo.tagged b!"{\"tags\":[\"\\u0041\"]}" none (Demo.tags [])) = some (false, Demo.tags []) := by
  refine ⟨?_, by decide +kernel⟩
  refine ⟨b!"\"street\":\"\\u0041\"", rfl, [], b!"street", [], [], b!"\"\\u0041\"", [], rfl, Ws.nil, ?_, Ws.nil, Ws.nil, ?_, Ws.nil⟩
  · exact label_lex lexOk_rfc (by unfold rfcRaw; decide)
  · refine ⟨b!"\\u0041", rfl, ?_⟩
    exact StrChars.uni (h := b!"0041") (cp := 0x41) (t := []) (c := [])
      ⟨_, _, _, _, 0, 0, 4, 1, rfl, .inl (by decide), .inl (by decide), .inl (by decide), .inl (by decide), rfl⟩ (.inl (by decide))
      trivial .nil

/-- A surrogate pair is joined even when other characters stand between its halves, and an unpaired high surrogate
disappears: neither is JSON with a defined meaning, both are accepted. -/
theorem C28_surrogates_sloppy :
    outcome (deserialize Demo.tagged b!"{\"tags\":[\"\\ud83dX\\ude00\",\"a\\ud83db\"]}" none (Demo.tags [])) =
      some (true, Demo.tags [[0x58, 0xF0, 0x9F, 0x98, 0x80], b!"ab"]) := by decide +kernel

example : StrChars rfcRaw (fun cp => 0x80 ≤ cp) b!"a\\n\\u20ac\\ud83d\\ude00" (b!"a\n" ++ [0xE2, 0x82, 0xAC, 0xF0, 0x9F, 0x98, 0x80]) := by
  refine .raw (by unfold rfcRaw; decide) (.esc (by decide) ?_)
  refine StrChars.uni (h := b!"20ac") (cp := 0x20AC) (t := b!"\\ud83d\\ude00") (c := [0xF0, 0x9F, 0x98, 0x80])
    ⟨_, _, _, _, 2, 0, 10, 12, rfl, .inl (by decide), .inl (by decide), .inr (.inr (by decide)), .inr (.inr (by decide)), rfl⟩
    (.inl (by decide)) (by decide) ?_
  exact StrChars.pair (h1 := b!"d83d") (h2 := b!"de00") (hi := 0xD83D) (lo := 0xDE00) (t := []) (c := [])
    ⟨_, _, _, _, 13, 8, 3, 13, rfl, .inr (.inr (by decide)), .inl (by decide), .inl (by decide), .inr (.inr (by decide)), rfl⟩
    ⟨_, _, _, _, 13, 14, 0, 0, rfl, .inr (.inr (by decide)), .inr (.inr (by decide)), .inl (by decide), .inl (by decide), rfl⟩
    (by decide) (by decide) (by decide) (by decide) .nil

end PG
