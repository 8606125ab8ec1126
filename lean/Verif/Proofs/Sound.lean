import Verif.Proofs.Unlex
import Verif.Props.Text
/-
What a successful reader says about the lexemes it consumed and the value they denote.
-/
set_option autoImplicit false
namespace PG
open IStream

/-- The lexeme does not go on at `s`. -/
def EndAfter (l : Bytes) (s : IStream) : Prop :=
  (SloppyNum l → s.eof = true ∨ numByte s.peek = false) ∧
  (l = b!"null" ∨ l = b!"true" ∨ l = b!"false" → s.eof = true ∨ isAlpha s.peek = false)

/-- From `s` to `s'` the lexemes `ls` were passed, with white space before each. -/
def Passed : IStream → List Bytes → IStream → Prop
  | s, [], s' => s' = s
  | s, l :: ls, s' => ∃ w s0 s1, Adv s s0 w ∧ Ws w ∧ Adv s0 s1 l ∧ EndAfter l s1 ∧ Passed s1 ls s'

theorem Passed.append : (ls : List Bytes) → {us : List Bytes} → {a b c : IStream} → Passed a ls b → Passed b us c →
    Passed a (ls ++ us) c
  | [], us, a, b, c, h1, h2 => by
    have : b = a := h1
    subst this; exact h2
  | l :: ls, us, a, b, c, h1, h2 => by
    obtain ⟨w, s0, s1, h3, h4, h5, h5', h6⟩ := h1
    exact ⟨w, s0, s1, h3, h4, h5, h5', Passed.append ls h6 h2⟩

theorem Passed.text : (ls : List Bytes) → {a b : IStream} → Norm a → Passed a ls b → ∃ t, Adv a b t ∧ Spaced ls t
  | [], a, b, hn, h => by
    have : b = a := h
    subst this; exact ⟨[], Adv.refl hn, Ws.nil⟩
  | l :: ls, a, b, hn, h => by
    obtain ⟨w, s0, s1, h3, h4, h5, -, h6⟩ := h
    obtain ⟨t, h7, h8⟩ := Passed.text ls h5.1 h6
    exact ⟨w ++ (l ++ t), h3.trans (h5.trans h7), w, t, rfl, h4, h8⟩

/-- The current token was read from `s`. -/
def Cur (tz : Tz) (s : IStream) : Prop := Norm s ∧ lex s = (tz.cur, tz.inp)

/-- Between two tokenizer states lexemes satisfying `P` were consumed. -/
def Eats (tz tz' : Tz) (P : List Bytes → Prop) : Prop :=
  ∀ s, Cur tz s → ∃ s' ls, Cur tz' s' ∧ Passed s ls s' ∧ P ls

theorem Eats.mono {a b : Tz} {P Q : List Bytes → Prop} (h : Eats a b P) (hpq : ∀ ls, P ls → Q ls) : Eats a b Q := fun s hs => by
  obtain ⟨s', ls, h1, h2, h3⟩ := h s hs
  exact ⟨s', ls, h1, h2, hpq _ h3⟩

theorem Eats.append {a b c : Tz} {P Q R : List Bytes → Prop} (h : Eats a b P) (h' : Eats b c Q)
    (hr : ∀ x y, P x → Q y → R (x ++ y)) : Eats a c R := fun s hs => by
  obtain ⟨s1, l1, h1, h2, h3⟩ := h s hs
  obtain ⟨s2, l2, h4, h5, h6⟩ := h' s1 h1
  exact ⟨s2, l1 ++ l2, h4, Passed.append l1 h2 h5, hr _ _ h3 h6⟩

theorem sloppy_head {b : Byte} {t : Bytes} (h : SloppyNum (b :: t)) : b = 45 ∨ 48 ≤ b ∧ b ≤ 57 := by
  obtain ⟨⟨x, u, hx, h⟩, -⟩ := h
  cases hx
  exact h

theorem TokText.ends {id : TId} {val txt : Bytes} {s : IStream} (h : TokText id val txt s) (hid : id ≠ .none) : EndAfter txt s := by
  unfold TokText at h
  cases id with
  | none => exact absurd rfl hid
  | eos =>
    obtain ⟨rfl, -⟩ := h
    exact ⟨fun h => absurd h (by rintro ⟨⟨x, u, hx, -⟩, -⟩; cases hx), by simp⟩
  | number =>
    refine ⟨fun _ => h.2.2, fun hw => ?_⟩
    have h2 := h.2.1
    rcases hw with rfl | rfl | rfl <;> exact absurd (sloppy_head h2) (by decide)
  | nil => obtain ⟨rfl, h⟩ := h; exact ⟨fun hs => absurd (sloppy_head hs) (by decide), fun _ => h⟩
  | btrue => obtain ⟨rfl, h⟩ := h; exact ⟨fun hs => absurd (sloppy_head hs) (by decide), fun _ => h⟩
  | bfalse => obtain ⟨rfl, h⟩ := h; exact ⟨fun hs => absurd (sloppy_head hs) (by decide), fun _ => h⟩
  | string =>
    obtain ⟨body, rfl, -⟩ := h
    exact ⟨fun hs => absurd (sloppy_head hs) (by decide), by simp⟩
  | _ => subst h; exact ⟨fun hs => absurd (sloppy_head hs) (by decide), by simp⟩

theorem Cur.tok {tz : Tz} {s : IStream} (h : Cur tz s) (hid : tz.cur.id ≠ .none) : Cur tz.next tz.inp ∧
    ∃ txt, Passed s [txt] tz.inp ∧ TokText tz.cur.id tz.cur.value txt tz.inp := by
  obtain ⟨w, txt, s0, h1, h2, h3, h4, -⟩ := lex_inv s h.1
  rw [h.2] at h3 h4
  exact ⟨⟨h3.1, rfl⟩, txt, ⟨w, s0, tz.inp, h1, h2, h3, h4.ends hid, rfl⟩, h4⟩

theorem eats_next {tz : Tz} {P : Bytes → Prop} (hid : tz.cur.id ≠ .none)
    (h : ∀ txt, TokText tz.cur.id tz.cur.value txt tz.inp → P txt) : Eats tz tz.next (fun ls => ∃ l, ls = [l] ∧ P l) := fun s hs => by
  obtain ⟨h1, txt, h2, h3⟩ := hs.tok hid
  exact ⟨tz.inp, [txt], h1, h2, txt, rfl, h txt h3⟩

theorem eats_error {a b : Tz} {P : List Bytes → Prop} {c : ECode} (h : Eats a b P) : Eats a (b.error c).2 P := fun s hs => by
  obtain ⟨s', ls, h1, h2⟩ := h s hs
  refine ⟨s', ls, ?_, h2⟩
  unfold Tz.error
  split
  · exact h1
  · exact h1

/-- The fixed tokens. -/
def TId.lexeme : TId → Option Bytes
  | .objs => some b!"{"
  | .obje => some b!"}"
  | .arrs => some b!"["
  | .arre => some b!"]"
  | .colon => some b!":"
  | .comma => some b!","
  | _ => Option.none

theorem eats_fixed {tz : Tz} {id : TId} {l : Bytes} (h : tz.cur.id = id) (hl : id.lexeme = some l) : Eats tz tz.next (· = [l]) :=
  (eats_next (P := fun x => x = l) (by rw [h]; rintro rfl; cases hl) (fun txt ht => by
    rw [h] at ht
    cases id <;> simp only [TId.lexeme, Option.some.injEq, reduceCtorEq] at hl <;> (subst hl; exact ht))).mono
    (fun ls h => by obtain ⟨x, rfl, rfl⟩ := h; rfl)

theorem eats_key {tz : Tz} (h : tz.cur.id = .string) :
    Eats tz tz.next (fun ls => ∃ k, ls = [k] ∧ ScalarOf (.str tz.cur.value) k) :=
  eats_next (by rw [h]; decide) (fun txt ht => by rw [h] at ht; exact ht)

/-- The value of a token that stands alone. -/
def tokVal (t : Token) : Option J :=
  match t.id with
  | .string => some (.str t.value)
  | .number => some (.num t.value)
  | .nil => some .null
  | .btrue => some (.bool true)
  | .bfalse => some (.bool false)
  | _ => Option.none

theorem eats_single {tz : Tz} {j : J} (h : tokVal tz.cur = some j) : Eats tz tz.next (Single j) :=
  (eats_next (P := ScalarOf j) (by intro h0; simp [tokVal, h0] at h) (fun txt ht => by
    unfold tokVal at h
    cases hid : tz.cur.id <;> rw [hid] at h ht <;> simp only [Option.some.injEq, reduceCtorEq] at h <;> subst h
    · exact ht
    · exact ht.1
    · exact ht.1
    · exact ht.1
    · exact ⟨ht.1, ht.2.1⟩)).mono (fun _ h => h)

theorem eats_scalar {tz : Tz} {s : Bool} {j : J} (h : tokVal tz.cur = some j) : Eats tz tz.next (Lv s j) :=
  (eats_single h).mono (fun ls h => by obtain ⟨x, rfl, h⟩ := h; exact .tok h)

theorem expect_true {tz tz' : Tz} {t : TId} (h : tz.expect t = (true, tz')) : tz.cur.id = t ∧ tz' = tz.next := by
  unfold Tz.expect at h
  split at h
  · rename_i hc; simp only [Prod.mk.injEq, true_and] at h; exact ⟨hc, h.symm⟩
  · simp at h

theorem expect_false {tz tz' : Tz} {t : TId} (h : tz.expect t = (false, tz')) : tz' = tz := by
  unfold Tz.expect at h
  split at h
  · simp at h
  · simp only [Prod.mk.injEq, true_and] at h; exact h.symm

theorem error_ne_ok {tz tz' : Tz} {c : ECode} : tz.error c ≠ (.ok, tz') := by
  intro h
  have := error_fst tz c
  rw [h] at this; cases this

theorem ignoreArrEnd_eats {tz tz' : Tz} (h : ignoreArrEnd tz = (.ok, tz')) : Eats tz tz' (· = [b!"]"]) := by
  unfold ignoreArrEnd at h
  split at h
  · rename_i x hx
    obtain ⟨h1, rfl⟩ := expect_true hx
    simp only [Prod.mk.injEq, true_and] at h; subst h
    exact eats_fixed h1 rfl
  · exact absurd h error_ne_ok

theorem ignoreObjEnd_eats {tz tz' : Tz} (h : ignoreObjEnd tz = (.ok, tz')) : Eats tz tz' (· = [b!"}"]) := by
  unfold ignoreObjEnd at h
  split at h
  · rename_i x hx
    obtain ⟨h1, rfl⟩ := expect_true hx
    simp only [Prod.mk.injEq, true_and] at h; subst h
    exact eats_fixed h1 rfl
  · exact absurd h error_ne_ok

/-- The rest of a skipped array, closing bracket included. -/
def RestArr (ls : List Bytes) : Prop := ls = [b!"]"] ∨ ∃ inner, ls = inner ++ [b!"]"] ∧ ∃ xs, LEl false xs inner
/-- The rest of a skipped object, closing brace included. -/
def RestObj (ls : List Bytes) : Prop := ls = [b!"}"] ∨ ∃ inner, ls = inner ++ [b!"}"] ∧ ∃ ms, LMe false ms inner

mutual
theorem ignoreValue_eats : (n : Nat) → (tz tz' : Tz) → ignoreValue n tz = (.ok, tz') →
    Eats tz tz' (fun ls => ∃ j, Lv false j ls ∧ (tz.cur.id = .nil → j = .null))
  | 0, _, _, h => by simp [ignoreValue] at h
  | n + 1, tz, tz', h => by
    unfold ignoreValue at h
    have scalar : ∀ j, tokVal tz.cur = some j → (tz.cur.id = .nil → j = .null) →
        (if (decide (tz.next.cur.id = .none) || decide (tz.next.cur.id = .eos)) = true then tz.next.error .ignoreEnd
          else (.ok, tz.next)) = (.ok, tz') → Eats tz tz' (fun ls => ∃ j, Lv false j ls ∧ (tz.cur.id = .nil → j = .null)) := by
      intro j h1 h0 h2
      split at h2
      · exact absurd h2 error_ne_ok
      · simp only [Prod.mk.injEq, true_and] at h2; subst h2
        exact (eats_scalar h1).mono fun ls hl => ⟨j, hl, h0⟩
    generalize hid : tz.cur.id = id at h
    cases id with
    | none => exact absurd h error_ne_ok
    | eos => exact absurd h error_ne_ok
    | obje => exact absurd h error_ne_ok
    | colon => exact absurd h error_ne_ok
    | comma => exact absurd h error_ne_ok
    | arre => exact absurd h error_ne_ok
    | string => rw [← hid]; exact scalar (.str tz.cur.value) (by simp only [tokVal, hid]) (by simp [hid]) h
    | number => rw [← hid]; exact scalar (.num tz.cur.value) (by simp only [tokVal, hid]) (by simp [hid]) h
    | nil => have := scalar .null (by simp only [tokVal, hid]) (by simp [hid]) h; rw [hid] at this; exact this
    | btrue => rw [← hid]; exact scalar (.bool true) (by simp only [tokVal, hid]) (by simp [hid]) h
    | bfalse => rw [← hid]; exact scalar (.bool false) (by simp only [tokVal, hid]) (by simp [hid]) h
    | objs =>
      skip
      refine (eats_fixed hid rfl).append (ignoreObjLoop_eats n tz.next tz' h) ?_
      rintro x y rfl (rfl | ⟨inner, rfl, ms, hi⟩)
      · exact ⟨_, .obj0, by simp⟩
      · exact ⟨_, .obj hi, by simp⟩
    | arrs =>
      skip
      refine (eats_fixed hid rfl).append (ignoreArrLoop_eats n tz.next tz' h) ?_
      rintro x y rfl (rfl | ⟨inner, rfl, xs, hi⟩)
      · exact ⟨_, .arr0, by simp⟩
      · exact ⟨_, .arr hi, by simp⟩
theorem ignoreArrLoop_eats : (n : Nat) → (tz tz' : Tz) → ignoreArrLoop n tz = (.ok, tz') → Eats tz tz' RestArr
  | 0, _, _, h => by simp [ignoreArrLoop] at h
  | n + 1, tz, tz', h => by
    unfold ignoreArrLoop at h
    split at h
    · exact (ignoreArrEnd_eats h).mono (fun _ h => .inl h)
    · cases hx : ignoreValue n tz with
      | mk c x =>
      rw [hx] at h
      cases c with
      | error => cases h
      | nil => cases h
      | fuel => cases h
      | ok =>
        have hv := ignoreValue_eats n tz x hx
        simp only at h
        split at h
        · rename_i y hy
          obtain ⟨h1, rfl⟩ := expect_true hy
          refine hv.append ((eats_fixed h1 rfl).append (ignoreArrLoop_eats n _ tz' h) (R := fun ls => ∃ r, ls = b!"," :: r ∧ RestArr r)
            (fun a b ha hb => ⟨b, by rw [ha]; rfl, hb⟩)) ?_
          rintro a b ⟨j, ha, _⟩ ⟨r, rfl, rfl | ⟨inner, rfl, xs, hi⟩⟩
          · exact .inr ⟨a ++ [b!","], by simp, _, .trail ha⟩
          · exact .inr ⟨a ++ b!"," :: inner, by simp, _, .cons ha hi⟩
        · rename_i y hy
          have := expect_false hy; subst this
          refine hv.append (ignoreArrEnd_eats h) ?_
          rintro a b ⟨j, ha, _⟩ rfl
          exact .inr ⟨a, rfl, _, .one ha⟩
theorem ignoreObjLoop_eats : (n : Nat) → (tz tz' : Tz) → ignoreObjLoop n tz = (.ok, tz') → Eats tz tz' RestObj
  | 0, _, _, h => by simp [ignoreObjLoop] at h
  | n + 1, tz, tz', h => by
    unfold ignoreObjLoop at h
    split at h
    · exact (ignoreObjEnd_eats h).mono (fun _ h => .inl h)
    · split at h
      · exact absurd h error_ne_ok
      · rename_i z hz
        obtain ⟨hk, rfl⟩ := expect_true hz
        split at h
        · exact absurd h error_ne_ok
        · rename_i z2 hz2
          obtain ⟨hc, rfl⟩ := expect_true hz2
          have hkc := (eats_key hk).append (eats_fixed hc rfl) (R := fun ls => ∃ k, ls = [k, b!":"] ∧ ScalarOf (.str tz.cur.value) k)
            (fun a b ha hb => by obtain ⟨k, rfl, hk⟩ := ha; subst hb; exact ⟨k, rfl, hk⟩)
          cases hx : ignoreValue n tz.next.next with
          | mk c x =>
          rw [hx] at h
          cases c with
          | error => cases h
          | nil => cases h
          | fuel => cases h
          | ok =>
            simp only at h
            have hv := hkc.append (ignoreValue_eats n _ x hx) (R := fun ls => ∃ k a j, ls = k :: b!":" :: a ∧
                ScalarOf (.str tz.cur.value) k ∧ Lv false j a)
              (fun a b ha hb => by obtain ⟨k, rfl, hk⟩ := ha; obtain ⟨j, hb, _⟩ := hb; exact ⟨k, b, j, rfl, hk, hb⟩)
            split at h
            · rename_i y hy
              obtain ⟨h1, rfl⟩ := expect_true hy
              refine hv.append ((eats_fixed h1 rfl).append (ignoreObjLoop_eats n _ tz' h) (R := fun ls => ∃ r, ls = b!"," :: r ∧ RestObj r)
                (fun a b ha hb => ⟨b, by rw [ha]; rfl, hb⟩)) ?_
              rintro _ _ ⟨k, a, j, rfl, hk, ha⟩ ⟨r, rfl, rfl | ⟨inner, rfl, ms, hi⟩⟩
              · exact .inr ⟨k :: b!":" :: (a ++ [b!","]), by simp, _, .trail hk ha⟩
              · exact .inr ⟨k :: b!":" :: (a ++ b!"," :: inner), by simp, _, .cons hk (fun h => h) ha hi⟩
            · rename_i y hy
              have := expect_false hy; subst this
              refine hv.append (ignoreObjEnd_eats h) ?_
              rintro _ b ⟨k, a, j, rfl, hk, ha⟩ rfl
              exact .inr ⟨k :: b!":" :: a, rfl, _, .one hk (fun h => h) ha⟩
end

theorem ignoreArrEnd_not_nil (tz : Tz) : (ignoreArrEnd tz).1 ≠ .nil := by
  unfold ignoreArrEnd
  split
  · simp
  · rw [error_fst]; decide

theorem ignoreObjEnd_not_nil (tz : Tz) : (ignoreObjEnd tz).1 ≠ .nil := by
  unfold ignoreObjEnd
  split
  · simp
  · rw [error_fst]; decide

mutual
theorem ignoreValue_not_nil : (n : Nat) → (tz : Tz) → (ignoreValue n tz).1 ≠ .nil
  | 0, _ => by simp [ignoreValue]
  | n + 1, tz => by
    unfold ignoreValue
    split
    case h_3 => exact ignoreObjLoop_not_nil n tz.next
    case h_4 => exact ignoreArrLoop_not_nil n tz.next
    all_goals first
      | (rw [error_fst]; decide)
      | (simp only; split
         · rw [error_fst]; decide
         · simp)
theorem ignoreArrLoop_not_nil : (n : Nat) → (tz : Tz) → (ignoreArrLoop n tz).1 ≠ .nil
  | 0, _ => by simp [ignoreArrLoop]
  | n + 1, tz => by
    unfold ignoreArrLoop
    split
    · exact ignoreArrEnd_not_nil _
    · cases hx : ignoreValue n tz with
      | mk c x =>
      have hv := ignoreValue_not_nil n tz
      rw [hx] at hv
      cases c with
      | ok =>
        simp only
        split
        · exact ignoreArrLoop_not_nil n _
        · exact ignoreArrEnd_not_nil _
      | error => exact hv
      | nil => exact hv
      | fuel => exact hv
theorem ignoreObjLoop_not_nil : (n : Nat) → (tz : Tz) → (ignoreObjLoop n tz).1 ≠ .nil
  | 0, _ => by simp [ignoreObjLoop]
  | n + 1, tz => by
    unfold ignoreObjLoop
    split
    · exact ignoreObjEnd_not_nil _
    · split
      · rw [error_fst]; decide
      · split
        · rw [error_fst]; decide
        · rename_i y _
          cases hx : ignoreValue n y with
          | mk c x =>
          have hv := ignoreValue_not_nil n y
          rw [hx] at hv
          cases c with
          | ok =>
            simp only
            split
            · exact ignoreObjLoop_not_nil n _
            · exact ignoreObjEnd_not_nil _
          | error => exact hv
          | nil => exact hv
          | fuel => exact hv
end

theorem eats_id (tz : Tz) : Eats tz tz (· = []) := fun s hs => ⟨s, [], hs, rfl, rfl⟩

/-- What a reader's result says: success consumed a value and absorbed it, `null` consumed nothing. -/
def ReadOk {α : Type} (P : J → List Bytes → Prop) (f : J → RC × α) (tz : Tz) (r : Res α) : Prop :=
  (r.1 = .ok → Eats tz r.2.1 (fun ls => ∃ j, P j ls ∧ f j = (.ok, r.2.2))) ∧
  (r.1 = .nil → r.2.1 = tz ∧ tz.cur.id = .nil ∧ f .null = (.nil, r.2.2))

theorem readOk_error {α : Type} {P : J → List Bytes → Prop} {f : J → RC × α} {tz tz' : Tz} {c : ECode} {v : α} :
    ReadOk P f tz ((tz'.error c).1, (tz'.error c).2, v) := by
  refine ⟨fun h => ?_, fun h => ?_⟩ <;> (simp only [error_fst] at h; cases h)

theorem readOk_scalar {α : Type} {f : J → RC × α} {tz : Tz} {v : α} {j : J} (h : tokVal tz.cur = some j) (hf : f j = (.ok, v)) :
    ReadOk Single f tz (.ok, tz.next, v) :=
  ⟨fun _ => (eats_single h).mono fun _ hl => ⟨j, hl, hf⟩, fun h => (by cases h)⟩

theorem readOk_nil {α : Type} {P : J → List Bytes → Prop} {f : J → RC × α} {tz : Tz} {v : α} (h : tz.cur.id = .nil) (hf : f .null = (.nil, v)) :
    ReadOk P f tz (.nil, tz, v) := ⟨fun h => (by cases h), fun _ => ⟨rfl, h, hf⟩⟩

theorem Prim.read_means (p : Prim) (tz : Tz) (v : p.Den) : ReadOk Single (fun j => p.absorb j v) tz (p.read tz v) := by
  cases p with
  | int k =>
    simp only [Prim.read]
    split
    · rename_i hid; exact readOk_nil hid rfl
    · split
      · exact readOk_error
      · rename_i h
        exact readOk_scalar (j := .num tz.cur.value) (by simp only [tokVal, show tz.cur.id = .number by simpa using h]) rfl
  | flt k =>
    simp only [Prim.read]
    split
    · rename_i hid; exact readOk_nil hid rfl
    · split
      · exact readOk_error
      · rename_i h
        exact readOk_scalar (j := .num tz.cur.value) (by simp only [tokVal, show tz.cur.id = .number by simpa using h]) rfl
  | bool =>
    simp only [Prim.read]
    split
    · rename_i hid; exact readOk_nil hid rfl
    · split
      · exact readOk_error
      · rename_i h
        by_cases h1 : tz.cur.id = .btrue
        · exact readOk_scalar (j := .bool true) (by simp only [tokVal, h1]) (by simp [Prim.absorb, h1])
        · by_cases h2 : tz.cur.id = .bfalse
          · exact readOk_scalar (j := .bool false) (by simp only [tokVal, h2]) (by simp [Prim.absorb, h2])
          · exact absurd ⟨h1, h2⟩ h

theorem stringRead_means (tz : Tz) (v : Bytes) :
    ReadOk Single (fun j => match j with | .null => (.nil, v) | .str s => (.ok, s) | _ => (.error, v)) tz (stringRead tz v) := by
  unfold stringRead
  split
  · rename_i hid; exact readOk_nil hid rfl
  · split
    · exact readOk_error
    · rename_i x hx
      obtain ⟨h1, rfl⟩ := expect_true hx
      exact readOk_scalar (j := .str tz.cur.value) (by simp only [tokVal, h1]) rfl

theorem ReadOk.map {α β : Type} {P : J → List Bytes → Prop} {f : J → RC × α} {f' : J → RC × β} {tz : Tz} {r : Res α} {g : RC → α → β}
    (h : ReadOk P f tz r) (hf : ∀ j c a, f j = (c, a) → c = .ok ∨ c = .nil → f' j = (c, g c a)) :
    ReadOk P f' tz (r.1, r.2.1, g r.1 r.2.2) := by
  refine ⟨fun hok => ?_, fun hnil => ?_⟩
  · refine (h.1 hok).mono ?_
    rintro ls ⟨j, h1, h2⟩
    simp only at hok
    exact ⟨j, h1, by simp only [hok]; exact hf j _ _ h2 (.inl rfl)⟩
  · simp only at hnil
    obtain ⟨h1, h2, h3⟩ := h.2 hnil
    exact ⟨h1, h2, by simp only [hnil]; exact hf _ _ _ h3 (.inr rfl)⟩

theorem bytesRead_means (tz : Tz) (v : List Byte) : ReadOk Single (fun j => Ty.absorb .bytes j v) tz (bytesRead tz v) := by
  unfold bytesRead
  split
  · rename_i hid; exact readOk_nil hid rfl
  · split
    · exact readOk_error
    · rename_i h
      have hs := readOk_scalar (f := fun j => Ty.absorb .bytes j v) (v := v ++ (b64Dec tz.cur.value).1) (tz := tz)
        (j := .str tz.cur.value) (by simp only [tokVal, show tz.cur.id = .string by simpa using h]) rfl
      refine ⟨fun _ => ?_, fun h => (by cases h)⟩
      have hs := hs.1 rfl
      simp only at hs ⊢
      split
      · exact eats_error hs
      · exact hs

/-- An array of elements, or a single lexeme. -/
def ArrOf (P : J → List Bytes → Prop) : J → List Bytes → Prop
  | .arr .nil, ls => ls = [b!"[", b!"]"]
  | .arr (.cons x xs), ls => ∃ inner, ls = b!"[" :: (inner ++ [b!"]"]) ∧ ElemsOf P (.cons x xs) inner
  | j, ls => Single j ls

/-- An object of members, or a single lexeme. -/
def ObjOf (P : Bytes → J → List Bytes → Prop) : J → List Bytes → Prop
  | .obj .nil, ls => ls = [b!"{", b!"}"]
  | .obj (.cons k x ms), ls => ∃ inner, ls = b!"{" :: (inner ++ [b!"}"]) ∧ MembersOf P (.cons k x ms) inner
  | j, ls => Single j ls

theorem _root_.PG.ElemsOf.arr {P : J → List Bytes → Prop} {xs : JL} {inner : List Bytes} (h : ElemsOf P xs inner) :
    ArrOf P (.arr xs) (b!"[" :: (inner ++ [b!"]"])) := by
  cases xs with
  | nil => cases h
  | cons x xs => exact ⟨inner, rfl, h⟩

theorem _root_.PG.MembersOf.obj {P : Bytes → J → List Bytes → Prop} {ms : JM} {inner : List Bytes} (h : MembersOf P ms inner) :
    ObjOf P (.obj ms) (b!"{" :: (inner ++ [b!"}"])) := by
  cases ms with
  | nil => cases h
  | cons k x ms => exact ⟨inner, rfl, h⟩

theorem readArrLoop_means {α : Type} {P : J → List Bytes → Prop} {f : J → RC × α} {rd : Tz → Res α} (hrd : ∀ tz, ReadOk P f tz (rd tz)) :
    (n : Nat) → (tz : Tz) → (v : List α) →
    (readArrLoop rd n tz v).1 ≠ .nil ∧
    ((readArrLoop rd n tz v).1 = .ok → Eats tz (readArrLoop rd n tz v).2.1 (fun ls => ∃ inner, ls = inner ++ [b!"]"] ∧
      ∃ xs, ElemsOf P xs inner ∧ absorbElems f xs v = (.ok, (readArrLoop rd n tz v).2.2)))
  | 0, tz, v => by simp [readArrLoop]
  | n + 1, tz, v => by
    have h := hrd tz
    unfold readArrLoop
    cases hx : rd tz with
    | mk c r =>
    obtain ⟨x, a⟩ := r
    rw [hx] at h
    cases c with
    | error => exact ⟨by simp, by simp⟩
    | fuel => exact ⟨by simp, by simp⟩
    | nil =>
      -- nothing was consumed: neither a comma nor a bracket can be the current token
      obtain ⟨hn, hid, _⟩ := h.2 rfl
      simp only at hn; subst hn
      simp only [expect_neg (tz := x) (t := .comma) (by rw [hid]; decide), expect_neg (tz := x) (t := .arre) (by rw [hid]; decide), error_fst]
      exact ⟨by decide, fun h => (by cases h)⟩
    | ok =>
      have hv := h.1 rfl
      simp only at hv
      simp only
      split
      · rename_i y hy
        obtain ⟨h1, rfl⟩ := expect_true hy
        have ih := readArrLoop_means hrd n x.next (v ++ [a])
        simp only [if_true]
        refine ⟨ih.1, fun hok => ?_⟩
        refine hv.append ((eats_fixed h1 rfl).append (ih.2 hok) (R := fun ls => ∃ inner, ls = b!"," :: (inner ++ [b!"]"]) ∧
            ∃ xs, ElemsOf P xs inner ∧ absorbElems f xs (v ++ [a]) = (.ok, (readArrLoop rd n x.next (v ++ [a])).2.2))
          (fun a b ha hb => by obtain ⟨i, rfl, hi⟩ := hb; subst ha; exact ⟨i, rfl, hi⟩)) ?_
        rintro l b ⟨j, ha, hj⟩ ⟨i, rfl, xs, hi, hxs⟩
        exact ⟨l ++ b!"," :: i, by simp, .cons j xs, .cons ha hi, by rw [absorbElems, hj]; exact hxs⟩
      · rename_i y hy
        have := expect_false hy; subst this
        split
        · rename_i z hz
          obtain ⟨h1, rfl⟩ := expect_true hz
          refine ⟨by simp, fun _ => hv.append (eats_fixed h1 rfl) ?_⟩
          rintro l b ⟨j, ha, hj⟩ rfl
          exact ⟨l, rfl, .cons j .nil, .one ha, by rw [absorbElems, hj]; rfl⟩
        · simp [error_fst]

theorem readArr_means {α : Type} {P : J → List Bytes → Prop} {f : J → RC × α} {rd : Tz → Res α} (hrd : ∀ tz, ReadOk P f tz (rd tz)) (n : Nat) (tz : Tz)
    (v : List α) : ReadOk (ArrOf P) (fun j => match j with | .null => (.nil, v) | .arr xs => absorbElems f xs v | _ => (.error, v)) tz
      (readArr rd n tz v) := by
  unfold readArr
  split
  · rename_i hid; exact readOk_nil hid rfl
  · split
    · exact readOk_error
    · rename_i x hx
      obtain ⟨h1, rfl⟩ := expect_true hx
      split
      · rename_i y hy
        obtain ⟨h2, rfl⟩ := expect_true hy
        refine ⟨fun _ => (eats_fixed h1 rfl).append (eats_fixed h2 rfl) ?_, fun h => (by cases h)⟩
        rintro a b rfl rfl
        exact ⟨.arr .nil, rfl, rfl⟩
      · rename_i y hy
        have := expect_false hy; subst this
        obtain ⟨h3, h4⟩ := readArrLoop_means hrd n tz.next v
        refine ⟨fun hok => (eats_fixed h1 rfl).append (h4 hok) ?_, fun h => absurd h h3⟩
        rintro a b rfl ⟨i, rfl, xs, hi, hxs⟩
        exact ⟨.arr xs, hi.arr, hxs⟩

/-- What a field reader's result says. -/
def FieldOk {α : Type} (P : J → List Bytes → Prop) (f : J → RC × α) (tz : Tz) (r : Res α) : Prop :=
  (r.1 = .ok → Eats tz r.2.1 (fun ls => ∃ j, P j ls ∧ f j = (.ok, r.2.2))) ∧
  (r.1 = .nil → r.2.1 = tz ∧ ∀ j, (tz.cur.id = .nil → j = .null) → f j = (.nil, r.2.2) ∧ ∀ ls, Lv false j ls → P j ls)

theorem lv_null {s : Bool} {ls : List Bytes} (h : Lv s .null ls) : Single .null ls := by
  cases h with
  | tok h => exact ⟨_, rfl, h⟩

theorem ReadOk.field {α : Type} {P : J → List Bytes → Prop} {f : J → RC × α} {tz : Tz} {r : Res α} (h : ReadOk P f tz r)
    (hP : ∀ ls, Single .null ls → P .null ls) : FieldOk P f tz r :=
  ⟨h.1, fun hn => by
    obtain ⟨h1, h2, h3⟩ := h.2 hn
    exact ⟨h1, fun j hj => by rw [hj h2]; exact ⟨h3, fun ls hl => hP ls (lv_null hl)⟩⟩⟩

theorem objStep_shape (tz : Tz) : (objStep tz).1 ≠ some .nil ∧
    ((objStep tz).1 = none → Eats tz (objStep tz).2 (· = [b!","])) ∧
    ((objStep tz).1 = some .ok → Eats tz (objStep tz).2 (· = [b!"}"])) := by
  unfold objStep
  split
  · rename_i x hx
    obtain ⟨h1, rfl⟩ := expect_true hx
    exact ⟨by simp, fun _ => eats_fixed h1 rfl, by simp⟩
  · rename_i x hx
    have := expect_false hx; subst this
    split
    · rename_i y hy
      obtain ⟨h1, rfl⟩ := expect_true hy
      exact ⟨by simp, by simp, fun _ => eats_fixed h1 rfl⟩
    · simp [error_fst]

/-- The rest of an object that was read. -/
def RestMembers {α : Type} (P : Bytes → J → List Bytes → Prop) (f : Bytes → J → α → RC × α) (v : α) (r : Res α) (ls : List Bytes) : Prop :=
  ∃ inner, ls = inner ++ [b!"}"] ∧ ∃ ms, MembersOf P ms inner ∧ absorbMembers f ms v = (.ok, r.2.2)

theorem readObjLoop_means {α : Type} {P : Bytes → J → List Bytes → Prop} {f : Bytes → J → α → RC × α} {rf : Bytes → Tz → α → Res α}
    (hrf : ∀ nm tz v, FieldOk (P nm) (fun j => f nm j v) tz (rf nm tz v)) : (n : Nat) → (tz : Tz) →
    (v : α) → (readObjLoop rf n tz v).1 ≠ .nil ∧
    ((readObjLoop rf n tz v).1 = .ok → Eats tz (readObjLoop rf n tz v).2.1 (RestMembers P f v (readObjLoop rf n tz v)))
  | 0, tz, v => by simp [readObjLoop]
  | n + 1, tz, v => by
    -- the tail of an iteration
    have step : ∀ (x : Tz) (w : α) (nm : Bytes),
        Eats tz x (fun ls => ∃ k a j, ls = k :: b!":" :: a ∧ ScalarOf (.str nm) k ∧ P nm j a ∧
          (f nm j v = (.ok, w) ∨ f nm j v = (.nil, w))) →
        ∀ r : Res α, (match objStep x with
          | (none, tz) => readObjLoop rf n tz w
          | (some r, tz) => (r, tz, w)) = r → r.1 ≠ .nil ∧ (r.1 = .ok → Eats tz r.2.1 (RestMembers P f v r)) := by
      intro x w nm hv r hr
      obtain ⟨o1, o2, o3⟩ := objStep_shape x
      have more : ∀ (j : J) (ms : JM) (u : α), (f nm j v = (.ok, w) ∨ f nm j v = (.nil, w)) → absorbMembers f ms w = (.ok, u) →
          absorbMembers f (.cons nm j ms) v = (.ok, u) := by
        intro j ms u h1 h2
        rw [absorbMembers]
        rcases h1 with h1 | h1 <;> rw [h1] <;> exact h2
      cases ho : objStep x with
      | mk c y =>
      rw [ho] at o1 o2 o3 hr
      cases c with
      | none =>
        have ih := readObjLoop_means hrf n y w
        simp only at hr
        subst hr
        refine ⟨ih.1, fun hok => ?_⟩
        refine hv.append ((o2 rfl).append (ih.2 hok)
          (R := fun ls => ∃ t, ls = b!"," :: t ∧ RestMembers P f w (readObjLoop rf n y w) t)
          (fun a b ha hb => by subst ha; exact ⟨b, rfl, hb⟩)) ?_
        rintro _ _ ⟨k, a, j, rfl, hk, ha, hj⟩ ⟨t, rfl, i, rfl, ms, hi, hms⟩
        exact ⟨k :: b!":" :: (a ++ b!"," :: i), by simp, .cons nm j ms, .cons hk ha hi, more _ _ _ hj hms⟩
      | some c =>
        simp only at hr
        subst hr
        refine ⟨fun h => o1 (by simp only at h ⊢; rw [h]), fun hok => ?_⟩
        simp only at hok; subst hok
        refine hv.append (o3 rfl) ?_
        rintro _ _ ⟨k, a, j, rfl, hk, ha, hj⟩ rfl
        exact ⟨k :: b!":" :: a, rfl, .cons nm j .nil, .one hk ha, more _ _ _ hj rfl⟩
    generalize hr : readObjLoop rf (n + 1) tz v = r
    unfold readObjLoop at hr
    simp only at hr
    split at hr
    · subst hr; simp [error_fst]
    · rename_i z hz
      obtain ⟨hk, rfl⟩ := expect_true hz
      split at hr
      · subst hr; simp [error_fst]
      · rename_i z2 hz2
        obtain ⟨hc, rfl⟩ := expect_true hz2
        have hkc := (eats_key hk).append (eats_fixed hc rfl) (R := fun ls => ∃ k, ls = [k, b!":"] ∧ ScalarOf (.str tz.cur.value) k)
          (fun a b ha hb => by obtain ⟨k, rfl, hk⟩ := ha; subst hb; exact ⟨k, rfl, hk⟩)
        have h := hrf tz.cur.value tz.next.next v
        cases hx : rf tz.cur.value tz.next.next v with
        | mk c q =>
        obtain ⟨x, w⟩ := q
        rw [hx] at h hr
        cases c with
        | error => simp only at hr; subst hr; simp
        | fuel => simp only at hr; subst hr; simp
        | ok =>
          refine step x w tz.cur.value (hkc.append (h.1 rfl) ?_) r hr
          rintro a b ⟨k, rfl, hk⟩ ⟨j, h1, h2⟩
          exact ⟨k, b, j, rfl, hk, h1, .inl h2⟩
        | nil =>
          obtain ⟨hn, hnil⟩ := h.2 rfl
          simp only at hn hnil
          subst hn
          simp only at hr
          cases hi : ignoreValue n tz.next.next with
          | mk c y =>
          rw [hi] at hr
          cases c with
          | error => simp only at hr; subst hr; simp
          | fuel => simp only at hr; subst hr; simp
          | nil => exact absurd (congrArg Prod.fst hi) (ignoreValue_not_nil n _)
          | ok =>
            refine step y w tz.cur.value (hkc.append (ignoreValue_eats n _ y hi) ?_) r hr
            rintro a b ⟨k, rfl, hk⟩ ⟨j, h1, h2⟩
            exact ⟨k, b, j, rfl, hk, (hnil j h2).2 _ h1, .inr (hnil j h2).1⟩

theorem readObj_means {α : Type} {P : Bytes → J → List Bytes → Prop} {f : Bytes → J → α → RC × α} {rf : Bytes → Tz → α → Res α}
    (hrf : ∀ nm tz v, FieldOk (P nm) (fun j => f nm j v) tz (rf nm tz v)) (n : Nat) (tz : Tz) (v : α) :
    ReadOk (ObjOf P) (fun j => match j with | .null => (.nil, v) | .obj ms => absorbMembers f ms v | _ => (.error, v)) tz
      (readObj rf n tz v) := by
  unfold readObj
  split
  · rename_i hid; exact readOk_nil hid rfl
  · split
    · exact readOk_error
    · rename_i x hx
      obtain ⟨h1, rfl⟩ := expect_true hx
      split
      · rename_i y hy
        obtain ⟨h2, rfl⟩ := expect_true hy
        refine ⟨fun _ => (eats_fixed h1 rfl).append (eats_fixed h2 rfl) ?_, fun h => (by cases h)⟩
        rintro a b rfl rfl
        exact ⟨.obj .nil, rfl, rfl⟩
      · rename_i y hy
        have := expect_false hy; subst this
        obtain ⟨h3, h4⟩ := readObjLoop_means hrf n tz.next v
        refine ⟨fun hok => (eats_fixed h1 rfl).append (h4 hok) ?_, fun h => absurd h h3⟩
        rintro a b rfl ⟨i, rfl, ms, hi, hms⟩
        exact ⟨.obj ms, hi.obj, hms⟩

theorem reads_rep (t : Ty) : Reads (.rep t) = ArrOf (Reads t) := by
  funext j ls
  cases j with
  | arr xs => cases xs <;> rfl
  | _ => rfl

/-- The values of the members of a message. -/
def ReadsKey (obf : Bool) (fs : Fields) (k : Bytes) (j : J) (a : List Bytes) : Prop :=
  match indexOf obf fs k with
  | none => Lv false j a
  | some i => ReadsAt fs i j a

theorem reads_msg (obf : Bool) (fs : Fields) : Reads (.msg obf fs) = ObjOf (ReadsKey obf fs) := by
  funext j ls
  cases j with
  | obj ms => cases ms <;> rfl
  | _ => rfl

theorem reads_null (t : Ty) (ls : List Bytes) (h : Single .null ls) : Reads t .null ls := by
  cases t <;> exact h

mutual
theorem Ty.read_means : (t : Ty) → (n : Nat) → (tz : Tz) → (v : t.Den) → ReadOk (Reads t) (fun j => t.absorb j v) tz (t.read n tz v)
  | .num p, n, tz, v => (p.read_means tz p.zero).map (g := fun c a => if c ≠ .nil then v.assignT a else v) (by
      intro j c a h hc
      simp only [Ty.absorb, h]
      rcases hc with rfl | rfl <;> rfl)
  | .raw p, n, tz, v => (p.read_means tz v)
  | .str, n, tz, v => (stringRead_means tz []).map (g := fun c a => (v.setEmpty (c = .nil)).assignT a) (by
      intro j c a h hc
      cases j <;> simp only [Prod.mk.injEq] at h <;> obtain ⟨rfl, rfl⟩ := h
      case null => rfl
      case str => rfl
      all_goals (rcases hc with hc | hc <;> cases hc))
  | .bytes, n, tz, v => bytesRead_means tz v
  | .rep t, n, tz, v => by
    rw [reads_rep]
    exact (readArr_means (fun tz => Ty.read_means t n tz t.new) n tz v).map (g := fun _ a => a) (by
      intro j c a h _
      cases j <;> exact h)
  | .msg obf fs, n, tz, v => by
    rw [reads_msg]
    exact (readObj_means (P := ReadsKey obf fs) (rf := fun name tz v => match indexOf obf fs name with
        | none => (.nil, tz, v)
        | some i => fs.readAt i n tz v) (f := fun k j v => match indexOf obf fs k with
        | none => (.nil, v)
        | some i => fs.absorbAt i j v) (fun nm tz v => by
      unfold ReadsKey
      cases indexOf obf fs nm with
      | none => exact ⟨fun h => (by cases h), fun _ => ⟨rfl, fun j _ => ⟨rfl, fun _ h => h⟩⟩⟩
      | some i => exact Fields.readAt_means fs i n tz v) n tz v).map (g := fun _ a => a) (by
      intro j c a h _
      cases j <;> exact h)
theorem Fields.readAt_means : (fs : Fields) → (i n : Nat) → (tz : Tz) → (v : fs.Den) →
    FieldOk (ReadsAt fs i) (fun j => fs.absorbAt i j v) tz (fs.readAt i n tz v)
  | .nil, i, n, tz, v => ⟨fun h => (by cases h), fun _ => ⟨rfl, fun _ _ => ⟨rfl, fun _ h => by unfold ReadsAt; exact h⟩⟩⟩
  | .cons f t rest, i, n, tz, v => by
    have sub : ∀ {β γ : Type} {P P' : J → List Bytes → Prop} {g : J → RC × β} {g' : J → RC × γ} {r : Res β} {m : β → γ},
        FieldOk P g tz r → P' = P → (∀ j, g' j = ((g j).1, m (g j).2)) → FieldOk P' g' tz (r.1, r.2.1, m r.2.2) := by
      intro β γ P P' g g' r m h hP hg
      subst hP
      refine ⟨fun hok => (h.1 hok).mono ?_, fun hn => ?_⟩
      · rintro ls ⟨j, h1, h2⟩
        exact ⟨j, h1, by rw [hg, h2]⟩
      · obtain ⟨h1, h2⟩ := h.2 hn
        exact ⟨h1, fun j hj => ⟨by rw [hg, (h2 j hj).1], (h2 j hj).2⟩⟩
    unfold Fields.readAt
    by_cases hf : f.transient = true
    · simp only [hf, if_true]
      exact sub (Fields.readAt_means rest i n tz v.2) (m := fun b => (v.1, b)) (by funext j ls; simp only [ReadsAt, hf, if_true])
        (fun j => by simp only [Fields.absorbAt, hf, if_true])
    · simp only [hf]
      cases i with
      | zero =>
        exact sub ((Ty.read_means t n tz v.1).field (reads_null t)) (m := fun b => (b, v.2))
          (by funext j ls; simp [ReadsAt, hf]) (fun j => by simp [Fields.absorbAt, hf])
      | succ i =>
        exact sub (Fields.readAt_means rest i n tz v.2) (m := fun b => (v.1, b)) (by funext j ls; simp [ReadsAt, hf])
          (fun j => by simp [Fields.absorbAt, hf])
end

theorem open_cur (input : Bytes) (e : ErrInfo) : Cur (Tz.open' (IStream.open' input) e) (IStream.open' input) :=
  ⟨skip_norm _ _ _, rfl⟩

theorem clean_open {input : Bytes} {s' : IStream} {t : Bytes} (h : Adv (IStream.open' input) s' t) :
    clean input = t ++ clean s'.rest := by
  obtain ⟨-, pre, h1, h2, -⟩ := skip_adv input 1 1
  obtain ⟨-, pre', h3, h4, -⟩ := h
  have h3 : (skip input 1 1).rest = pre' ++ s'.rest := h3
  rw [h1, clean_append, h2, h3, clean_append, h4]; rfl

theorem deserialize_ok {t : Ty} {input : Bytes} {params : Option Params} {v : t.Den} {r : DRes t.Den}
    (h : deserialize t input params v = some r) (hr : r.ret = true) :
    (t.read (fuelFor input) (Tz.open' (IStream.open' input) (ctxParams params).err) v).1 = .ok := by
  unfold deserialize deserializeFrom at h
  simp only at h
  split at h
  · cases h
  · simp only [Option.some.injEq] at h
    rw [← h] at hr
    simpa using hr

theorem deserialize_obj {t : Ty} {input : Bytes} {params : Option Params} {v : t.Den} {r : DRes t.Den}
    (h : deserialize t input params v = some r) :
    r.obj = (t.read (fuelFor input) (Tz.open' (IStream.open' input) (ctxParams params).err) v).2.2 := by
  unfold deserialize deserializeFrom at h
  simp only at h
  split at h
  · cases h
  · simp only [Option.some.injEq] at h
    rw [← h]

end PG
