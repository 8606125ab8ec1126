import Verif.Spec.Finite
import Verif.Proofs.Near
import Verif.Proofs.Faithful
import Verif.Proofs.Complete
/-
What the writers emit for numbers that are not finite, and that no reader gets past it.
-/
set_option autoImplicit false
namespace PG
open IStream

mutual
theorem Ty.writable_iff (ok : Byte → Prop) (ascii : Bool) : (t : Ty) → (v : t.Den) →
    (t.Writable ok ascii v ↔ t.Strings (StrOk ok ascii) v ∧ t.AllFinite v)
  | .num _, v => by simp only [Ty.Writable, Ty.Strings, Ty.AllFinite, true_and]
  | .raw _, v => by simp only [Ty.Writable, Ty.Strings, Ty.AllFinite, true_and]
  | .str, v => by simp only [Ty.Writable, Ty.Strings, Ty.AllFinite, and_true]
  | .bytes, v => by simp only [Ty.Writable, Ty.Strings, Ty.AllFinite, and_true]
  | .rep t, v => by
    simp only [Ty.Writable, Ty.Strings, Ty.AllFinite]
    exact ⟨fun h => ⟨fun x hx => ((Ty.writable_iff ok ascii t x).mp (h x hx)).1,
      fun x hx => ((Ty.writable_iff ok ascii t x).mp (h x hx)).2⟩,
      fun h x hx => (Ty.writable_iff ok ascii t x).mpr ⟨h.1 x hx, h.2 x hx⟩⟩
  | .msg _ fs, v => by
    simp only [Ty.Writable, Ty.Strings, Ty.AllFinite]
    exact Fields.writable_iff ok ascii fs v
theorem Fields.writable_iff (ok : Byte → Prop) (ascii : Bool) : (fs : Fields) → (v : fs.Den) →
    (fs.Writable ok ascii v ↔ fs.Strings (StrOk ok ascii) v ∧ fs.AllFinite v)
  | .nil, v => by simp only [Fields.Writable, Fields.Strings, Fields.AllFinite, and_true]
  | .cons f t rest, v => by
    simp only [Fields.Writable, Fields.Strings, Fields.AllFinite]
    rw [Fields.writable_iff ok ascii rest v.2]
    constructor
    · rintro ⟨h1, h2, h3⟩
      exact ⟨⟨fun hf => ((Ty.writable_iff ok ascii t v.1).mp (h1 hf)).1, h2⟩,
        fun hf => ((Ty.writable_iff ok ascii t v.1).mp (h1 hf)).2, h3⟩
    · rintro ⟨⟨h1, h2⟩, h3, h4⟩
      exact ⟨fun hf => (Ty.writable_iff ok ascii t v.1).mpr ⟨h1 hf, h3 hf⟩, h2, h4⟩
end

mutual
theorem Ty.strings_mono {P Q : Bytes → Prop} (h : ∀ s, P s → Q s) : (t : Ty) → (v : t.Den) → t.Strings P v → t.Strings Q v
  | .num _, v, hs => by simp only [Ty.Strings]
  | .raw _, v, hs => by simp only [Ty.Strings]
  | .str, v, hs => fun he => h _ (hs he)
  | .bytes, v, hs => by simp only [Ty.Strings]
  | .rep t, v, hs => fun x hx => Ty.strings_mono h t x (hs x hx)
  | .msg _ fs, v, hs => Fields.strings_mono h fs v hs
theorem Fields.strings_mono {P Q : Bytes → Prop} (h : ∀ s, P s → Q s) : (fs : Fields) → (v : fs.Den) → fs.Strings P v →
    fs.Strings Q v
  | .nil, _, _ => trivial
  | .cons _ t rest, v, hs => ⟨fun hf => Ty.strings_mono h t v.1 (hs.1 hf), Fields.strings_mono h rest v.2 hs.2⟩
end

/-- What is taken as zero is finite. -/
theorem Prim.finite_of_near {p : Prim} {v : p.Den} (h : p.near v p.zero = true) : p.Finite v := by
  cases p with
  | int k => trivial
  | bool => trivial
  | flt k =>
    obtain ⟨neg, m, hv, -⟩ := PG.near_zero k v h
    exact ⟨neg, m, hv⟩

mutual
theorem Ty.finite_of_empty : (t : Ty) → (v : t.Den) → t.empty v = true → t.AllFinite v
  | .num _, v, h => fun he => by
    have h : v.empty = true := h
    rw [h] at he; cases he
  | .raw _, v, h => Prim.finite_of_near h
  | .str, v, h => by simp only [Ty.AllFinite]
  | .bytes, v, h => by simp only [Ty.AllFinite]
  | .rep t, v, h => by
    have h : List.isEmpty (α := t.Den) v = true := h
    have h := List.isEmpty_iff.mp h
    intro x hx
    rw [h] at hx
    cases hx
  | .msg _ fs, v, h => Fields.finite_of_empty fs v h
theorem Fields.finite_of_empty : (fs : Fields) → (v : fs.Den) → fs.empty v = true → fs.AllFinite v
  | .nil, _, _ => trivial
  | .cons _ t rest, v, h => by
    simp only [Fields.empty, Bool.and_eq_true] at h
    exact ⟨fun _ => Ty.finite_of_empty t v.1 h.1, Fields.finite_of_empty rest v.2 h.2⟩
end

mutual
theorem Ty.strings_of_empty {P : Bytes → Prop} : (t : Ty) → (v : t.Den) → t.empty v = true → t.Strings P v
  | .num _, _, _ => trivial
  | .raw _, _, _ => trivial
  | .str, v, h => fun he => by
    have h : v.empty = true := h
    rw [h] at he; cases he
  | .bytes, _, _ => trivial
  | .rep t, v, h => by
    have h : List.isEmpty (α := t.Den) v = true := h
    have h := List.isEmpty_iff.mp h
    intro x hx
    rw [h] at hx
    cases hx
  | .msg _ fs, v, h => Fields.strings_of_empty fs v h
theorem Fields.strings_of_empty {P : Bytes → Prop} : (fs : Fields) → (v : fs.Den) → fs.empty v = true → fs.Strings P v
  | .nil, _, _ => trivial
  | .cons _ t rest, v, h => by
    simp only [Fields.empty, Bool.and_eq_true] at h
    exact ⟨fun _ => Ty.strings_of_empty t v.1 h.1, Fields.strings_of_empty rest v.2 h.2⟩
end

mutual
theorem Ty.strings_and {P Q : Bytes → Prop} : (t : Ty) → (v : t.Den) → t.Strings P v → t.Strings Q v →
    t.Strings (fun s => P s ∧ Q s) v
  | .num _, _, _, _ => trivial
  | .raw _, _, _, _ => trivial
  | .str, _, h, h' => fun he => ⟨h he, h' he⟩
  | .bytes, _, _, _ => trivial
  | .rep t, _, h, h' => fun x hx => Ty.strings_and t x (h x hx) (h' x hx)
  | .msg _ fs, v, h, h' => Fields.strings_and fs v h h'
theorem Fields.strings_and {P Q : Bytes → Prop} : (fs : Fields) → (v : fs.Den) → fs.Strings P v → fs.Strings Q v →
    fs.Strings (fun s => P s ∧ Q s) v
  | .nil, _, _, _ => trivial
  | .cons _ t rest, v, h, h' => ⟨fun hf => Ty.strings_and t v.1 (h.1 hf) (h'.1 hf), Fields.strings_and rest v.2 h.2 h'.2⟩
end

/-! ### The text outside of strings -/

/-- The text without the contents of its strings. -/
def strip : Bool → Bytes → Bytes
  | _, [] => []
  | false, b :: t => if b = c!"\"" then b :: strip true t else b :: strip false t
  | true, b :: t =>
    if b = c!"\\" then
      match t with
      | [] => []
      | _ :: t => strip true t
    else if b = c!"\"" then strip false t
    else strip true t

/-- No letter `i`, and no `a` behind an `n`; the first argument is the byte before. -/
def sane : Byte → Bytes → Bool
  | _, [] => true
  | p, b :: t => (b != c!"i" && !(p == c!"n" && b == c!"a")) && sane b t

/-- A piece of text that leaves `k` outside of strings, wherever it stands. -/
def Leaves (b k : Bytes) : Prop := ∀ r, strip false (b ++ r) = k ++ strip false r

theorem Leaves.append {a b k l : Bytes} (h : Leaves a k) (h' : Leaves b l) : Leaves (a ++ b) (k ++ l) := fun r => by
  rw [List.append_assoc, h, h', List.append_assoc]
theorem Leaves.nil : Leaves [] [] := fun _ => rfl
theorem Leaves.raw {k : Bytes} (h : ∀ b ∈ k, b ≠ c!"\"") : Leaves k k := fun r => by
  induction k with
  | nil => rfl
  | cons b k ih =>
    rw [List.cons_append, strip, if_neg (h b (List.mem_cons_self ..)), ih fun x hx => h x (List.mem_cons_of_mem _ hx)]
    rfl

def Sane (k : Bytes) : Prop := ∀ p, sane p k = true
def Insane (k : Bytes) : Prop := ∀ p, sane p k = false

theorem Sane.nil : Sane [] := fun _ => rfl
theorem Sane.append {a b : Bytes} (ha : Sane a) (hb : Sane b) : Sane (a ++ b) := by
  have : ∀ p, sane p a = true → sane p (a ++ b) = true := by
    induction a with
    | nil => intro p _; exact hb p
    | cons x a ih =>
      intro p h
      rw [List.cons_append]
      unfold sane at h ⊢
      rw [Bool.and_eq_true] at h ⊢
      refine ⟨h.1, ?_⟩
      clear ih
      have : ∀ (a : Bytes) (p : Byte), sane p a = true → sane p (a ++ b) = true := by
        intro a
        induction a with
        | nil => intro p _; exact hb p
        | cons x a ih =>
          intro p h
          rw [List.cons_append]
          unfold sane at h ⊢
          rw [Bool.and_eq_true] at h ⊢
          exact ⟨h.1, ih _ h.2⟩
      exact this a x h.2
  exact fun p => this p (ha p)
theorem Insane.left {a : Bytes} (h : Insane a) (b : Bytes) : Insane (a ++ b) := by
  have : ∀ (a : Bytes) (p : Byte), sane p a = false → sane p (a ++ b) = false := by
    intro a
    induction a with
    | nil => intro p h; cases h
    | cons x a ih =>
      intro p h
      rw [List.cons_append]
      unfold sane at h ⊢
      rw [Bool.and_eq_false_iff] at h ⊢
      exact h.imp_right fun h => ih _ h
  exact fun p => this a p (h p)
theorem Insane.right {b : Bytes} (h : Insane b) (a : Bytes) : Insane (a ++ b) := by
  induction a with
  | nil => exact h
  | cons x a ih =>
    intro p
    rw [List.cons_append]
    unfold sane
    rw [ih x, Bool.and_false]
theorem Insane.not {a : Bytes} (h : Insane a) : ¬ Sane a := fun h' => by
  have := h' 0
  rw [h 0] at this
  cases this

theorem Sane.bytes {k : Bytes} (h : ∀ b ∈ k, b ≠ c!"i" ∧ b ≠ c!"a") : Sane k := by
  induction k with
  | nil => exact Sane.nil
  | cons b k ih =>
    intro p
    have hb := h b (List.mem_cons_self ..)
    unfold sane
    rw [ih fun x hx => h x (List.mem_cons_of_mem _ hx)]
    simp [hb.1, hb.2]

theorem ws_plain {b : Byte} (h : wsByte b = true) : b ≠ c!"\"" ∧ b ≠ c!"i" ∧ b ≠ c!"a" := by
  refine ⟨?_, ?_, ?_⟩ <;> (rintro rfl; exact absurd h (by decide))
theorem num_plain {b : Byte} (h : numByte b = true) : b ≠ c!"\"" ∧ b ≠ c!"i" ∧ b ≠ c!"a" := by
  refine ⟨?_, ?_, ?_⟩ <;> (rintro rfl; exact absurd h (by decide))

/-- Text that leaves something sane. -/
def Clear (b : Bytes) : Prop := ∃ k, Leaves b k ∧ Sane k
/-- Text that leaves something insane. -/
def Spoilt (b : Bytes) : Prop := ∃ k, Leaves b k ∧ Insane k

theorem Clear.append {a b : Bytes} : Clear a → Clear b → Clear (a ++ b)
  | ⟨_, h1, h2⟩, ⟨_, h3, h4⟩ => ⟨_, h1.append h3, h2.append h4⟩
theorem Clear.bytes {b : Bytes} (h : ∀ x ∈ b, x ≠ c!"\"" ∧ x ≠ c!"i" ∧ x ≠ c!"a") : Clear b :=
  ⟨b, Leaves.raw fun x hx => (h x hx).1, Sane.bytes fun x hx => (h x hx).2⟩
theorem Clear.ws {w : Bytes} (h : Ws w) : Clear w := Clear.bytes fun x hx => ws_plain (h x hx)
theorem Clear.one {b : Byte} (h : b ≠ c!"\"" ∧ b ≠ c!"i" ∧ b ≠ c!"a") : Clear [b] :=
  Clear.bytes fun x hx => by rw [List.mem_singleton.mp hx]; exact h
theorem Clear.sloppy {l : Bytes} (h : SloppyNum l) : Clear l := Clear.bytes fun x hx => num_plain (h.2 x hx)
theorem Spoilt.left {a b : Bytes} : Spoilt a → Clear b → Spoilt (a ++ b)
  | ⟨_, h1, h2⟩, ⟨_, h3, _⟩ => ⟨_, h1.append h3, h2.left _⟩
theorem Spoilt.right {a b : Bytes} : Clear a → Spoilt b → Spoilt (a ++ b)
  | ⟨_, h1, _⟩, ⟨_, h3, h4⟩ => ⟨_, h1.append h3, h4.right _⟩
theorem Spoilt.both {a b : Bytes} : Spoilt a → Spoilt b → Spoilt (a ++ b)
  | ⟨_, h1, h2⟩, ⟨_, h3, _⟩ => ⟨_, h1.append h3, h2.left _⟩
theorem Spoilt.not {b : Bytes} : Spoilt b → ¬ Clear b
  | ⟨k, h1, h2⟩, ⟨l, h3, h4⟩ => by
    have e : k = l := by
      have a := h1 []
      have b := h3 []
      simp only [strip, List.append_nil] at a b
      rw [← a, ← b]
    exact h2.not (e ▸ h4)

theorem strip_esc (x : Byte) (t : Bytes) : strip true (c!"\\" :: x :: t) = strip true t := by
  rw [strip.eq_def]
  simp

theorem strip_quote (t : Bytes) : strip true (c!"\"" :: t) = strip false t := by
  rw [strip.eq_def]
  simp

theorem strip_plain {x : Byte} (h1 : x ≠ c!"\"") (h2 : x ≠ c!"\\") (t : Bytes) : strip true (x :: t) = strip true t := by
  rw [strip.eq_def]
  simp [h1, h2]

/-- Characters of strings: what stands for itself is neither a quote nor a backslash. -/
theorem StrChars.strip {raw : Byte → Prop} {uni : Nat → Prop} (hr : ∀ b, raw b → b ≠ c!"\"" ∧ b ≠ c!"\\") {body s : Bytes}
    (h : StrChars raw uni body s) : ∀ r, PG.strip true (body ++ c!"\"" :: r) = PG.strip false r := by
  have hex : ∀ {h : Bytes} {cp : Nat}, Hex4 h cp → ∀ r, PG.strip true (h ++ r) = PG.strip true r := by
    rintro h cp ⟨a, b, c, d, va, vb, vc, vd, rfl, ha, hb, hc, hd, -⟩ r
    have key : ∀ {x : Byte} {v : Nat}, HexDigit x v → ∀ r, PG.strip true (x :: r) = PG.strip true r := by
      intro x v hx r
      have h1 : x ≠ c!"\\" := by
        rintro rfl; unfold HexDigit at hx; revert hx; simp
      have h2 : x ≠ c!"\"" := by
        rintro rfl; unfold HexDigit at hx; revert hx; simp
      exact strip_plain h2 h1 r
    simp only [List.cons_append, List.nil_append, key ha, key hb, key hc, key hd]
  induction h with
  | nil => intro r; rw [List.nil_append, strip_quote]
  | raw hb _ ih =>
    intro r
    rw [List.cons_append, strip_plain (hr _ hb).1 (hr _ hb).2, ih]
  | esc _ _ ih => intro r; rw [List.cons_append, List.cons_append, strip_esc]; exact ih r
  | uni hh _ _ _ ih =>
    intro r
    rw [List.cons_append, List.cons_append, strip_esc, List.append_assoc]
    rw [hex hh, ih]
  | pair h1 h2 _ _ _ _ _ ih =>
    intro r
    rw [List.cons_append, List.cons_append, strip_esc, List.append_assoc]
    rw [hex h1, List.cons_append, List.cons_append, strip_esc, List.append_assoc, hex h2, ih]

/-- A lexical grammar whose strings end at the first quote that is not escaped, and whose numerals are made of the characters
of numerals. -/
structure Quoted (L : Lexis) : Prop where
  str : ∀ body s, L.str body s → ∀ r, strip true (body ++ c!"\"" :: r) = strip false r
  num : ∀ l, L.num l → SloppyNum l

theorem quoted_rfc : Quoted rfc where
  str _ _ h := StrChars.strip (fun _ h => h.2) h
  num _ h := h.sloppy
theorem quoted_wide : Quoted wide where
  str _ _ h := StrChars.strip (fun _ h => h.2.2) h
  num _ h := h

theorem Clear.string {L : Lexis} (hL : Quoted L) {body s : Bytes} (h : L.str body s) :
    Clear (c!"\"" :: (body ++ [c!"\""])) := by
  refine ⟨b!"\"", fun r => ?_, by intro p; simp [sane]⟩
  rw [List.cons_append, strip, if_pos rfl, List.append_assoc]
  show _ :: strip true (body ++ c!"\"" :: r) = _
  rw [hL.str body s h r]
  rfl

theorem Clear.cons {b : Byte} {t : Bytes} (h : b ≠ c!"\"" ∧ b ≠ c!"i" ∧ b ≠ c!"a") (ht : Clear t) : Clear (b :: t) :=
  (Clear.one h).append ht

mutual
/-- JSON texts are clear. -/
theorem clear_val {L : Lexis} (hL : Quoted L) : (j : J) → ∀ {b : Bytes}, JVal L j b → Clear b
  | .null, _, h => by
    cases h
    exact ⟨_, Leaves.raw (by decide), by intro p; simp [sane]⟩
  | .bool true, _, h => by
    cases h
    exact ⟨_, Leaves.raw (by decide), by intro p; simp [sane]⟩
  | .bool false, _, h => by
    cases h
    exact ⟨_, Leaves.raw (by decide), by intro p; simp [sane]⟩
  | .num l, _, h => by
    obtain ⟨rfl, h⟩ := h
    exact Clear.sloppy (hL.num _ h)
  | .str s, _, h => by
    obtain ⟨body, rfl, h⟩ := h
    exact Clear.string hL h
  | .arr xs, _, h => by
    obtain ⟨inner, rfl, h⟩ := h
    exact Clear.cons (by decide) ((clear_elems hL xs h).append (Clear.one (by decide)))
  | .obj ms, _, h => by
    obtain ⟨inner, rfl, h⟩ := h
    exact Clear.cons (by decide) ((clear_members hL ms h).append (Clear.one (by decide)))
theorem clear_elems {L : Lexis} (hL : Quoted L) : (xs : JL) → ∀ {b : Bytes}, JElems L xs b → Clear b
  | .nil, _, h => Clear.ws h
  | .cons j .nil, _, h => by
    obtain ⟨w, b, w', rfl, h1, h2, h3⟩ := h
    exact (Clear.ws h1).append ((clear_val hL j h2).append (Clear.ws h3))
  | .cons j (.cons j' t), _, h => by
    obtain ⟨w, b, w', r, rfl, h1, h2, h3, h4⟩ := h
    exact (Clear.ws h1).append ((clear_val hL j h2).append ((Clear.ws h3).append
      (Clear.cons (by decide) (clear_elems hL (.cons j' t) h4))))
theorem clear_members {L : Lexis} (hL : Quoted L) : (ms : JM) → ∀ {b : Bytes}, JMembers L ms b → Clear b
  | .nil, _, h => Clear.ws h
  | .cons k j .nil, _, h => by
    obtain ⟨w, kb, w1, w2, b, w', rfl, h1, h2, h3, h4, h5, h6⟩ := h
    have hk := Clear.string hL h2
    have := hk.append ((Clear.ws h3).append (Clear.cons (b := c!":") (by decide) ((Clear.ws h4).append
      ((clear_val hL j h5).append (Clear.ws h6)))))
    simp only [List.cons_append, List.append_assoc, List.nil_append] at this
    exact (Clear.ws h1).append this
  | .cons k j (.cons k' j' t), _, h => by
    obtain ⟨w, kb, w1, w2, b, w', r, rfl, h1, h2, h3, h4, h5, h6, h7⟩ := h
    have hk := Clear.string hL h2
    have := hk.append ((Clear.ws h3).append (Clear.cons (b := c!":") (by decide) ((Clear.ws h4).append
      ((clear_val hL j h5).append ((Clear.ws h6).append (Clear.cons (b := c!",") (by decide)
        (clear_members hL (.cons k' j' t) h7)))))))
    simp only [List.cons_append, List.append_assoc, List.nil_append] at this
    exact (Clear.ws h1).append this
end

/-! ### Where the tokenizer stops -/

/-- Skipping a value fails on the text, whatever follows. -/
def Breaks (b : Bytes) : Prop := ∀ (rest : Bytes) (k : Nat) (tz : Tz), Delim rest → 2 * b.length ≤ k → At tz (b ++ rest) →
  tz.cur.id ≠ .arre ∧ (ignoreValue k tz).1 ≠ .ok

theorem LexTo.badWord {ds rest : Bytes} (h : ds = b!"nan" ∨ ds = b!"inf") (hr : WordEnd rest) :
    LexTo (ds ++ rest) .none [] rest := by
  intro l c
  rcases h with rfl | rfl
  · obtain ⟨l', c', h⟩ := lexIdent_run (ds := b!"nan") (rest := rest) (by decide) hr l c []
    rw [List.cons_append] at h ⊢
    rw [lex, dif_pos (skip_eof (by decide) _ _ _), h]
    simp only [skip_peek (b := 110) (by decide)]
    exact ⟨_, _, l', c', rfl⟩
  · obtain ⟨l', c', h⟩ := lexIdent_run (ds := b!"inf") (rest := rest) (by decide) hr l c []
    rw [List.cons_append] at h ⊢
    rw [lex, dif_pos (skip_eof (by decide) _ _ _), h]
    simp only [skip_peek (b := 105) (by decide)]
    exact ⟨_, _, l', c', rfl⟩

theorem Tz.error_ne (tz : Tz) (e : ECode) : (tz.error e).1 ≠ .ok := by
  unfold Tz.error; split <;> simp

theorem breaks_word {ds : Bytes} (h : ds = b!"nan" ∨ ds = b!"inf") : Breaks ds := by
  intro rest k tz hd hk ha
  obtain ⟨h1, -, -⟩ := ha.tok (LexTo.badWord h hd.word)
  refine ⟨by rw [h1]; decide, ?_⟩
  obtain ⟨k, rfl⟩ : ∃ k', k = k' + 1 := ⟨k - 1, by rcases h with rfl | rfl <;> (simp at hk; omega)⟩
  unfold ignoreValue
  rw [h1]
  exact Tz.error_ne _ _

theorem breaks_minus : Breaks b!"-inf" := by
  intro rest k tz hd hk ha
  have hl : LexTo (b!"-" ++ (b!"inf" ++ rest)) .number b!"-" (b!"inf" ++ rest) :=
    LexTo.number ⟨⟨c!"-", [], rfl, .inl rfl⟩, by decide⟩ (by
      intro b hb
      rw [List.cons_append, firstByte_cons (by decide)] at hb
      cases hb
      decide)
  obtain ⟨h1, -, h2⟩ := ha.tok hl
  obtain ⟨h3, -, -⟩ := h2.tok (LexTo.badWord (.inr rfl) hd.word)
  refine ⟨by rw [h1]; decide, ?_⟩
  obtain ⟨k, rfl⟩ : ∃ k', k = k' + 1 := ⟨k - 1, by simp at hk; omega⟩
  unfold ignoreValue
  rw [h1]
  simp only
  rw [if_pos (by rw [h3]; rfl)]
  exact Tz.error_ne _ _

/-- What is written for a number that is not finite. -/
theorem text_not_finite {p : Prim} {v : p.Den} (h : ¬ p.Finite v) :
    p.text v = b!"nan" ∨ p.text v = b!"inf" ∨ p.text v = b!"-inf" := by
  cases p with
  | int k => exact absurd trivial h
  | bool => exact absurd trivial h
  | flt k =>
    obtain ⟨x, hx⟩ := v
    cases x with
    | nan => exact .inl rfl
    | inf n => cases n; exact .inr (.inl rfl); exact .inr (.inr rfl)
    | fin n m => exact absurd ⟨n, m, rfl⟩ h

/-- A text without an end. -/
structure Bad (b : Bytes) : Prop where
  breaks : Breaks b
  spoilt : Spoilt b

theorem bad_number {p : Prim} {v : p.Den} (h : ¬ p.Finite v) : Bad (p.text v) := by
  rcases text_not_finite h with h | h | h <;> rw [h]
  · exact ⟨breaks_word (.inl rfl), _, Leaves.raw (by decide), by intro p; simp [sane]⟩
  · exact ⟨breaks_word (.inr rfl), _, Leaves.raw (by decide), by intro p; simp [sane]⟩
  · exact ⟨breaks_minus, _, Leaves.raw (by decide), by intro p; simp [sane]⟩

/-- Skipping the elements of an array fails. -/
def BreaksE (b : Bytes) : Prop := ∀ (rest : Bytes) (k : Nat) (tz : Tz), 2 * b.length + 1 ≤ k → At tz (b ++ c!"]" :: rest) →
  (ignoreArrLoop k tz).1 ≠ .ok

theorem arrLoop_bad {k : Nat} {tz : Tz} (h1 : tz.cur.id ≠ .arre) (h2 : (ignoreValue k tz).1 ≠ .ok) :
    (ignoreArrLoop (k + 1) tz).1 ≠ .ok := by
  unfold ignoreArrLoop
  rw [if_neg h1]
  generalize ignoreValue k tz = x at h2
  obtain ⟨r, tz'⟩ := x
  cases r <;> first | exact absurd rfl h2 | exact h2

theorem head_arre {j : J} {b rest : Bytes} {tz : Tz} (h : JVal wide j b) (hd : Delim rest) (ha : At tz (b ++ rest)) :
    tz.cur.id ≠ .arre := by
  rw [ha.head h (hd.endOk j)]
  cases j with
  | bool x => cases x <;> decide
  | _ => simp [headTok]

theorem writeElems_bad {α : Type} {wr : α → ErrInfo → WRes} {f : α → J} {G : α → Prop} {e : ErrInfo} : (xs : List α) →
    (∀ x ∈ xs, G x → ∃ b, wr x e = (.ok, b, e) ∧ JVal wide (f x) b) →
    (∀ x ∈ xs, ¬ G x → ∃ b, wr x e = (.ok, b, e) ∧ Bad b) → (¬ ∀ x ∈ xs, G x) →
    ∃ b, writeElems wr xs e = (b, e) ∧ BreaksE b ∧ Spoilt b
  | [], _, _, hn => absurd (by simp) hn
  | [x], hg, hb, hn => by
    obtain ⟨b, h1, h2⟩ := hb x (by simp) (fun h => hn (by simpa using h))
    refine ⟨b, by simp [writeElems, h1], ?_, h2.spoilt⟩
    intro rest k tz hk ha
    obtain ⟨k, rfl⟩ : ∃ k', k = k' + 1 := ⟨k - 1, by omega⟩
    obtain ⟨h3, h4⟩ := h2.breaks _ k tz (Delim.arre rest) (by omega) ha
    exact arrLoop_bad h3 h4
  | x :: y :: t, hg, hb, hn => by
    by_cases hx : G x
    · have hn' : ¬ ∀ z ∈ y :: t, G z := fun h => hn fun z hz => by
        rcases List.mem_cons.mp hz with rfl | hz
        · exact hx
        · exact h z hz
      obtain ⟨b', h1, h2, h3⟩ := writeElems_bad (y :: t) (fun z hz => hg z (List.mem_cons_of_mem _ hz))
        (fun z hz => hb z (List.mem_cons_of_mem _ hz)) hn'
      obtain ⟨b, h4, h5⟩ := hg x (by simp) hx
      refine ⟨b ++ c!"," :: b', by simp [writeElems, h4, h1], ?_,
        Spoilt.right (clear_val quoted_wide _ h5) (Spoilt.right (Clear.one (by decide) : Clear [c!","]) h3)⟩
      intro rest k tz hk ha
      simp only [List.length_append, List.length_cons, List.append_assoc, List.cons_append] at hk ha
      obtain ⟨k, rfl⟩ : ∃ k', k = k' + 1 := ⟨k - 1, by omega⟩
      have hd : Delim (c!"," :: (b' ++ c!"]" :: rest)) := Delim.comma _
      obtain ⟨tz1, h6, h7⟩ := ignore_val (f x) (k := k) h5 hd (Follow.comma (w := []) Ws.nil _) (by omega) ha
      obtain ⟨h8, -, h9⟩ := h7.tok (LexTo.comma _)
      unfold ignoreArrLoop
      rw [if_neg (head_arre h5 hd ha), h6]
      simp only
      rw [expect_pos h8]
      exact h2 rest k tz1.next (by have := JVal_pos h5; omega) h9
    · obtain ⟨b, h1, h2⟩ := hb x (by simp) hx
      have hrest : ∃ b', writeElems wr (y :: t) e = (b', e) ∧ (Clear b' ∨ Spoilt b') := by
        by_cases ht : ∀ z ∈ y :: t, G z
        · obtain ⟨b', h3, h4⟩ := writeElems_ok (L := wide) (wr := wr) (f := f) (xs := y :: t) (e := e)
            (fun z hz => hg z (List.mem_cons_of_mem _ hz) (ht z hz))
          exact ⟨b', h3, .inl (clear_elems quoted_wide _ h4)⟩
        · obtain ⟨b', h3, -, h4⟩ := writeElems_bad (y :: t) (fun z hz => hg z (List.mem_cons_of_mem _ hz))
            (fun z hz => hb z (List.mem_cons_of_mem _ hz)) ht
          exact ⟨b', h3, .inr h4⟩
      obtain ⟨b', h3, h4⟩ := hrest
      refine ⟨b ++ c!"," :: b', by simp [writeElems, h1, h3], ?_, ?_⟩
      · intro rest k tz hk ha
        simp only [List.length_append, List.length_cons, List.append_assoc, List.cons_append] at hk ha
        obtain ⟨k, rfl⟩ : ∃ k', k = k' + 1 := ⟨k - 1, by omega⟩
        obtain ⟨h5, h6⟩ := h2.breaks _ k tz (Delim.comma _) (by omega) ha
        exact arrLoop_bad h5 h6
      · rcases h4 with h4 | h4
        · exact h2.spoilt.left (Clear.cons (by decide) h4)
        · exact h2.spoilt.both (Spoilt.right (Clear.one (by decide) : Clear [c!","]) h4)

/-- Skipping the members of an object fails. -/
def BreaksM (b : Bytes) : Prop := ∀ (rest : Bytes) (k : Nat) (tz : Tz), 2 * b.length + 1 ≤ k → At tz (b ++ c!"}" :: rest) →
  (ignoreObjLoop k tz).1 ≠ .ok

/-- The text of the fields after the first one begins with a comma. -/
theorem Fields.write_comma (p : Params) : (fs : Fields) → (v : fs.Den) → (e : ErrInfo) →
    (fs.write p v false e).1 = [] ∨ ∃ r, (fs.write p v false e).1 = c!"," :: r
  | .nil, _, _ => .inl rfl
  | .cons f t rest, v, e => by
    unfold Fields.write
    split
    · exact Fields.write_comma p rest v.2 e
    · split
      · exact .inr ⟨_, rfl⟩
      · exact Fields.write_comma p rest v.2 e

theorem objLoop_member {k : Nat} {tz : Tz} {lab b tail : Bytes} (hl : wide.str lab lab)
    (ha : At tz (c!"\"" :: (lab ++ c!"\"" :: c!":" :: (b ++ tail)))) :
    tz.cur.id = .string ∧ ∃ tz1, At tz1 (b ++ tail) ∧ ignoreObjLoop (k + 1) tz =
      match ignoreValue k tz1 with
      | (.ok, tz) =>
        match tz.expect .comma with
        | (true, tz) => ignoreObjLoop k tz
        | (false, tz) => ignoreObjEnd tz
      | (r, tz) => (r, tz) := by
  obtain ⟨a1, -, a2⟩ := ha.tok (LexTo.string hl _)
  obtain ⟨a3, -, a4⟩ := a2.tok (LexTo.colon _)
  refine ⟨a1, tz.next.next, a4, ?_⟩
  rw [ignoreObjLoop]
  rw [if_neg (by rw [a1]; decide), expect_pos a1]
  simp only
  rw [expect_pos a3]
  rfl

mutual
theorem Ty.write_bad (p : Params) : (t : Ty) → (v : t.Den) → (e : ErrInfo) → t.LabelsOk →
    t.Strings (StrOk (fun b => b ≠ 0) p.ensureAscii) v → ¬ t.AllFinite v → ∃ b, t.write p v e = (.ok, b, e) ∧ Bad b
  | .num q, v, e, _, _, hn => by
    simp only [Ty.AllFinite, Classical.not_imp] at hn
    simp only [Ty.write, hn.1]
    exact ⟨_, rfl, bad_number hn.2⟩
  | .raw q, v, e, _, _, hn => ⟨_, rfl, bad_number hn⟩
  | .str, v, e, _, _, hn => absurd trivial hn
  | .bytes, v, e, _, _, hn => absurd trivial hn
  | .rep t, v, e, hl, hs, hn => by
    obtain ⟨b, h1, h2, h3⟩ := writeElems_bad (wr := t.write p) (f := t.toJ p.serializeNull) (G := t.AllFinite) (e := e) v
      (fun x hx hg => Ty.write_ok lexOk_wide p t x e hl ((Ty.writable_iff _ _ t x).mpr ⟨hs x hx, hg⟩))
      (fun x hx hg => Ty.write_bad p t x e hl (hs x hx) hg) hn
    refine ⟨c!"[" :: b ++ [c!"]"], by simp only [Ty.write, h1], ?_,
      Spoilt.left (Spoilt.right (Clear.one (by decide) : Clear [c!"["]) h3) (Clear.one (by decide))⟩
    intro rest k tz hd hk ha
    simp only [List.length_append, List.length_cons, List.length_nil, List.append_assoc, List.cons_append, List.nil_append] at hk ha
    obtain ⟨a1, -, a2⟩ := ha.tok (LexTo.arrs _)
    refine ⟨by rw [a1]; decide, ?_⟩
    obtain ⟨k, rfl⟩ : ∃ k', k = k' + 1 := ⟨k - 1, by omega⟩
    unfold ignoreValue
    rw [a1]
    exact h2 rest k tz.next (by omega) a2
  | .msg _ fs, v, e, hl, hs, hn => by
    obtain ⟨b, h1, h2, h3⟩ := Fields.write_bad p fs v true e hl hs hn
    refine ⟨c!"{" :: b ++ [c!"}"], by simp only [Ty.write, h1], ?_,
      Spoilt.left (Spoilt.right (Clear.one (by decide) : Clear [c!"{"]) h3) (Clear.one (by decide))⟩
    intro rest k tz hd hk ha
    simp only [List.length_append, List.length_cons, List.length_nil, List.append_assoc, List.cons_append, List.nil_append] at hk ha
    obtain ⟨a1, -, a2⟩ := ha.tok (LexTo.objs _)
    refine ⟨by rw [a1]; decide, ?_⟩
    obtain ⟨k, rfl⟩ : ∃ k', k = k' + 1 := ⟨k - 1, by omega⟩
    unfold ignoreValue
    rw [a1]
    simp only [if_true] at h2
    exact h2 rest k tz.next (by omega) a2

theorem Fields.write_bad (p : Params) : (fs : Fields) → (v : fs.Den) → (first : Bool) → (e : ErrInfo) → fs.LabelsOk →
    fs.Strings (StrOk (fun b => b ≠ 0) p.ensureAscii) v → ¬ fs.AllFinite v →
    ∃ b, fs.write p v first e = (b, e) ∧ (if first then BreaksM b else ∃ r, b = c!"," :: r ∧ BreaksM r) ∧ Spoilt b
  | .nil, _, _, _, _, _, hn => absurd trivial hn
  | .cons f t rest, v, first, e, hl, hs, hn => by
    unfold Fields.LabelsOk at hl
    unfold Fields.Strings at hs
    unfold Fields.AllFinite at hn
    unfold Fields.write
    cases hf : f.transient with
    | true =>
      simp only [if_true]
      exact Fields.write_bad p rest v.2 first e hl.2.2 hs.2 (fun h => hn ⟨fun h' => absurd h' (by rw [hf]; decide), h⟩)
    | false =>
      simp only [Bool.false_eq_true, if_false]
      split
      · have hlab := label_lex lexOk_wide (hl.1 hf)
        have hrest : ∃ s, rest.write p v.2 false e = (s, e) ∧ (Clear s ∨ Spoilt s) ∧ (s = [] ∨ ∃ r, s = c!"," :: r) ∧
            (¬ rest.AllFinite v.2 → ∃ r, s = c!"," :: r ∧ BreaksM r ∧ Spoilt s) := by
          have hc := Fields.write_comma p rest v.2 e
          by_cases hr : rest.AllFinite v.2
          · obtain ⟨s, h1, h2⟩ := Fields.write_ok lexOk_wide p rest v.2 false e hl.2.2 ((Fields.writable_iff _ _ rest v.2).mpr ⟨hs.2, hr⟩)
            refine ⟨s, h1, .inl ?_, by rw [h1] at hc; exact hc, fun h => absurd hr h⟩
            revert h2
            cases rest.toJ p.serializeNull v.2 with
            | nil => intro h2; cases h2; exact ⟨[], Leaves.nil, Sane.nil⟩
            | cons k j ms =>
              intro h2
              simp only [MembText, Bool.false_eq_true, if_false] at h2
              obtain ⟨r, rfl, h2⟩ := h2
              exact Clear.cons (by decide) (clear_members quoted_wide _ h2)
          · obtain ⟨s, h1, h2, h3⟩ := Fields.write_bad p rest v.2 false e hl.2.2 hs.2 hr
            simp only [Bool.false_eq_true, if_false] at h2
            obtain ⟨r, h4, h5⟩ := h2
            exact ⟨s, h1, .inr h3, .inr ⟨r, h4⟩, fun _ => ⟨r, h4, h5, h3⟩⟩
        obtain ⟨s, h1, h2, h3, h4⟩ := hrest
        -- the text of the member, and of what follows
        have hval : ∃ b, t.write p v.1 e = (.ok, b, e) ∧
            BreaksM (c!"\"" :: (f.wlabel ++ c!"\"" :: c!":" :: (b ++ s))) ∧ Spoilt (b ++ s) := by
          by_cases hv : t.AllFinite v.1
          · obtain ⟨b, h5, h6⟩ := Ty.write_ok lexOk_wide p t v.1 e hl.2.1 ((Ty.writable_iff _ _ t v.1).mpr ⟨hs.1 hf, hv⟩)
            obtain ⟨r, rfl, h7, h8⟩ := h4 (fun h => hn ⟨fun _ => hv, h⟩)
            refine ⟨b, h5, ?_, Spoilt.right (clear_val quoted_wide _ h6) h8⟩
            intro tail k tz hk ha
            simp only [List.length_append, List.length_cons, List.append_assoc, List.cons_append] at hk ha
            obtain ⟨k, rfl⟩ : ∃ k', k = k' + 1 := ⟨k - 1, by omega⟩
            obtain ⟨a1, tz1, a2, a3⟩ := objLoop_member (k := k) hlab ha
            obtain ⟨tz2, a4, a5⟩ := ignore_val _ (k := k) h6 (Delim.comma _) (Follow.comma (w := []) Ws.nil _) (by omega) a2
            obtain ⟨a6, -, a7⟩ := a5.tok (LexTo.comma _)
            rw [a3, a4]
            simp only
            rw [expect_pos a6]
            exact h7 tail k tz2.next (by omega) a7
          · obtain ⟨b, h5, h6⟩ := Ty.write_bad p t v.1 e hl.2.1 (hs.1 hf) hv
            refine ⟨b, h5, ?_, ?_⟩
            · intro tail k tz hk ha
              simp only [List.length_append, List.length_cons, List.append_assoc, List.cons_append] at hk ha
              obtain ⟨k, rfl⟩ : ∃ k', k = k' + 1 := ⟨k - 1, by omega⟩
              obtain ⟨a1, tz1, a2, a3⟩ := objLoop_member (k := k) hlab ha
              have hd : Delim (s ++ c!"}" :: tail) := by
                rcases h3 with rfl | ⟨r, rfl⟩
                · exact Delim.obje _
                · exact Delim.comma _
              obtain ⟨-, a4⟩ := h6.breaks _ k tz1 hd (by omega) a2
              rw [a3]
              generalize ignoreValue k tz1 = x at a4
              obtain ⟨r, tz'⟩ := x
              cases r <;> first | exact absurd rfl a4 | exact a4
            · rcases h2 with h2 | h2
              · exact h6.spoilt.left h2
              · exact h6.spoilt.both h2
        obtain ⟨b, h5, h6, h7⟩ := hval
        simp only [h5, h1]
        have hkey : Clear (c!"\"" :: (f.wlabel ++ [c!"\""])) := Clear.string quoted_wide hlab
        have hsp : Spoilt (c!"\"" :: (f.wlabel ++ c!"\"" :: c!":" :: (b ++ s))) := by
          have := Spoilt.right hkey (Spoilt.right (Clear.one (by decide) : Clear [c!":"]) h7)
          simpa using this
        cases first with
        | true =>
          refine ⟨_, rfl, ?_, ?_⟩
          · simpa using h6
          · simpa using hsp
        | false =>
          refine ⟨_, rfl, ?_, ?_⟩
          · simpa using h6
          · have := Spoilt.right (Clear.one (by decide) : Clear [c!","]) hsp
            simpa using this
      · rename_i hw
        have he : t.empty v.1 = true := by
          cases h : t.empty v.1 with
          | true => rfl
          | false => rw [h] at hw; simp at hw
        exact Fields.write_bad p rest v.2 first e hl.2.2 hs.2 (fun h => hn ⟨fun _ => Ty.finite_of_empty t v.1 he, h⟩)
end

end PG
