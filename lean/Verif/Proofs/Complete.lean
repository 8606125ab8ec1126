import Verif.Proofs.Sound
import Verif.Proofs.LineFeeds
import Verif.Spec.Fault
/-
Every document of the lenient grammar is read, with the result its value prescribes.
-/
set_option autoImplicit false
namespace PG
open IStream

/-- The tokenizer stands before the lexemes. -/
def Stand (tz : Tz) (ls : List Bytes) (rest : Bytes) : Prop := ∃ bs, Upto ls rest bs ∧ At tz bs

/-- What follows ends a numeral or a literal. -/
def Ends : List Bytes → Bytes → Prop
  | [], rest => Delim rest
  | p :: _, _ => p = b!"," ∨ p = b!"]" ∨ p = b!"}"

theorem Ends.delim {ls : List Bytes} {rest bs : Bytes} (h : Ends ls rest) (hu : Upto ls rest bs) : Delim bs := by
  cases ls with
  | nil => cases hu; exact h
  | cons p ls =>
    obtain ⟨w, r, rfl, hw, -⟩ := hu
    refine Delim.ws hw ?_
    rcases h with rfl | rfl | rfl
    · exact Delim.comma _
    · exact Delim.arre _
    · exact Delim.obje _

/-- What follows ends the last token of the value; arrays, objects and strings end by themselves. -/
def JEnd : J → Bytes → Prop
  | .num _, bs => NumEnd bs
  | .null, bs => WordEnd bs
  | .bool _, bs => WordEnd bs
  | _, _ => True

/-- The same for the lexemes that follow. -/
def EndsFor (j : J) (us : List Bytes) (rest : Bytes) : Prop := ∀ bs, Upto us rest bs → JEnd j bs

theorem _root_.PG.Delim.jEnd {bs : Bytes} (h : Delim bs) (j : J) : JEnd j bs := by
  cases j <;> first | trivial | exact h.num | exact h.word

theorem Ends.of {us : List Bytes} {rest : Bytes} (h : Ends us rest) (j : J) : EndsFor j us rest :=
  fun _ hu => (h.delim hu).jEnd j

theorem EndsFor.closer {j : J} {p : Bytes} {us : List Bytes} {rest : Bytes} (h : p = b!"," ∨ p = b!"]" ∨ p = b!"}") :
    EndsFor j (p :: us) rest := Ends.of (us := p :: us) h j

/-- The tokens of the punctuation characters. -/
def mark (l : Bytes) : Option TId :=
  if l = b!"," then some .comma
  else if l = b!":" then some .colon
  else if l = b!"[" then some .arrs
  else if l = b!"]" then some .arre
  else if l = b!"{" then some .objs
  else if l = b!"}" then some .obje
  else none

theorem Stand.mark {tz : Tz} {l : Bytes} {ls : List Bytes} {rest : Bytes} {id : TId} (h : Stand tz (l :: ls) rest)
    (hm : mark l = some id) : tz.cur.id = id ∧ Stand tz.next ls rest := by
  obtain ⟨bs, ⟨w, r, rfl, hw, hu⟩, ha⟩ := h
  have step : ∀ {id' : TId}, LexTo (l ++ r) id' [] r → tz.cur.id = id' ∧ Stand tz.next ls rest := by
    intro id' hl
    obtain ⟨h1, -, h3⟩ := (ha.dropWs hw).tok hl
    exact ⟨h1, r, hu, h3⟩
  unfold PG.mark at hm
  split at hm
  · cases hm; subst_vars; exact step (LexTo.comma r)
  split at hm
  · cases hm; subst_vars; exact step (LexTo.colon r)
  split at hm
  · cases hm; subst_vars; exact step (LexTo.arrs r)
  split at hm
  · cases hm; subst_vars; exact step (LexTo.arre r)
  split at hm
  · cases hm; subst_vars; exact step (LexTo.objs r)
  split at hm
  · cases hm; subst_vars; exact step (LexTo.obje r)
  · cases hm

theorem Stand.scalar {tz : Tz} {l val : Bytes} {ls : List Bytes} {rest : Bytes} {j : J} (h : Stand tz (l :: ls) rest)
    (hs : ScalarOf j l) (hv : scalarVal j = some val) (he : EndsFor j ls rest) :
    tz.cur.id = headTok j ∧ tz.cur.value = val ∧ Stand tz.next ls rest := by
  obtain ⟨bs, ⟨w, r, rfl, hw, hu⟩, ha⟩ := h
  have hd := he _ hu
  have hl : LexTo (l ++ r) (headTok j) val r := by
    cases j with
    | null => cases hv; cases hs; exact LexTo.null hd
    | bool b => cases hv; cases b <;> cases hs <;> first | exact LexTo.true hd | exact LexTo.false hd
    | num n => cases hv; obtain ⟨rfl, hn⟩ := hs; exact LexTo.number hn hd
    | str s =>
      cases hv
      obtain ⟨body, rfl, hm⟩ := hs
      have := LexTo.means hm r
      simpa [headTok] using this
    | arr _ => cases hv
    | obj _ => cases hv
  obtain ⟨h1, h2, h3⟩ := (ha.dropWs hw).tok hl
  exact ⟨h1, h2, r, hu, h3⟩

theorem Stand.key {tz : Tz} {l k : Bytes} {ls : List Bytes} {rest : Bytes} (h : Stand tz (l :: ls) rest)
    (hs : ScalarOf (.str k) l) : tz.cur.id = .string ∧ tz.cur.value = k ∧ Stand tz.next ls rest := by
  obtain ⟨bs, ⟨w, r, rfl, hw, hu⟩, ha⟩ := h
  obtain ⟨body, rfl, hm⟩ := hs
  have hl : LexTo ((c!"\"" :: (body ++ [c!"\""])) ++ r) .string k r := by
    simpa using LexTo.means hm r
  obtain ⟨h1, h2, h3⟩ := (ha.dropWs hw).tok hl
  exact ⟨h1, h2, r, hu, h3⟩

theorem scalarOf_val {j : J} {l : Bytes} (h : ScalarOf j l) : ∃ v, scalarVal j = some v := by
  cases j with
  | arr _ => exact h.elim
  | obj _ => exact h.elim
  | _ => exact ⟨_, rfl⟩

theorem Stand.head {s : Bool} {j : J} {a us : List Bytes} {rest : Bytes} {tz : Tz} (hl : Lv s j a) (h : Stand tz (a ++ us) rest)
    (he : EndsFor j us rest) : tz.cur.id = headTok j := by
  cases hl with
  | tok hs =>
    obtain ⟨v, hv⟩ := scalarOf_val hs
    exact (Stand.scalar h hs hv he).1
  | arr0 => exact (Stand.mark (id := .arrs) h (by decide)).1
  | arr _ => exact (Stand.mark (id := .arrs) h (by decide)).1
  | obj0 => exact (Stand.mark (id := .objs) h (by decide)).1
  | obj _ => exact (Stand.mark (id := .objs) h (by decide)).1

theorem lv_length {s : Bool} {j : J} {a : List Bytes} (h : Lv s j a) : 1 ≤ a.length := by
  cases h <;> simp

theorem Stand.closer {tz : Tz} {l : Bytes} {ls : List Bytes} {rest : Bytes} (h : Stand tz (l :: ls) rest)
    (hl : l = b!"," ∨ l = b!"]" ∨ l = b!"}") : tz.cur.id ≠ .none ∧ tz.cur.id ≠ .eos := by
  rcases hl with rfl | rfl | rfl
  · rw [(Stand.mark (id := .comma) h (by decide)).1]; decide
  · rw [(Stand.mark (id := .arre) h (by decide)).1]; decide
  · rw [(Stand.mark (id := .obje) h (by decide)).1]; decide

theorem skip_arr_end {tz : Tz} {us : List Bytes} {rest : Bytes} {n : Nat} (h : Stand tz (b!"]" :: us) rest) (hn : 1 ≤ n) :
    ∃ tz', ignoreArrLoop n tz = (.ok, tz') ∧ Stand tz' us rest := by
  obtain ⟨n, rfl⟩ : ∃ m, n = m + 1 := ⟨n - 1, by omega⟩
  obtain ⟨h1, h2⟩ := Stand.mark (id := .arre) h (by decide)
  refine ⟨tz.next, ?_, h2⟩
  unfold ignoreArrLoop ignoreArrEnd
  rw [if_pos h1, expect_pos h1]

theorem skip_obj_end {tz : Tz} {us : List Bytes} {rest : Bytes} {n : Nat} (h : Stand tz (b!"}" :: us) rest) (hn : 1 ≤ n) :
    ∃ tz', ignoreObjLoop n tz = (.ok, tz') ∧ Stand tz' us rest := by
  obtain ⟨n, rfl⟩ : ∃ m, n = m + 1 := ⟨n - 1, by omega⟩
  obtain ⟨h1, h2⟩ := Stand.mark (id := .obje) h (by decide)
  refine ⟨tz.next, ?_, h2⟩
  unfold ignoreObjLoop ignoreObjEnd
  rw [if_pos h1, expect_pos h1]

mutual
/-- A value of the lenient grammar followed by a comma or a closing bracket or brace is skipped. -/
theorem skips : {s : Bool} → {j : J} → {a : List Bytes} → Lv s j a → ∀ {p : Bytes} {us : List Bytes} {rest : Bytes} {tz : Tz} {n : Nat},
    (p = b!"," ∨ p = b!"]" ∨ p = b!"}") → 2 * a.length ≤ n → Stand tz (a ++ p :: us) rest →
    ∃ tz', ignoreValue n tz = (.ok, tz') ∧ Stand tz' (p :: us) rest
  | _, j, _, .tok (l := l) hs, p, us, rest, tz, n, hp, hn, h => by
    obtain ⟨n, rfl⟩ : ∃ m, n = m + 1 := ⟨n - 1, by simp at hn; omega⟩
    obtain ⟨v, hv⟩ := scalarOf_val hs
    obtain ⟨h1, -, h2⟩ := Stand.scalar (ls := p :: us) h hs hv (EndsFor.closer hp)
    have h3 := Stand.closer h2 hp
    refine ⟨tz.next, ?_, h2⟩
    unfold ignoreValue
    rw [h1]
    cases j with
    | arr _ => cases hv
    | obj _ => cases hv
    | bool x => cases x <;> simp [headTok, h3.1, h3.2]
    | _ => simp [headTok, h3.1, h3.2]
  | _, _, _, .arr0, p, us, rest, tz, n, hp, hn, h => by
    simp at hn
    obtain ⟨n, rfl⟩ : ∃ m, n = m + 1 := ⟨n - 1, by omega⟩
    obtain ⟨h1, h2⟩ := Stand.mark (id := .arrs) h (by decide)
    obtain ⟨tz', h3, h4⟩ := skip_arr_end (n := n) h2 (by omega)
    refine ⟨tz', ?_, h4⟩
    unfold ignoreValue
    rw [h1]; exact h3
  | _, _, _, .obj0, p, us, rest, tz, n, hp, hn, h => by
    simp at hn
    obtain ⟨n, rfl⟩ : ∃ m, n = m + 1 := ⟨n - 1, by omega⟩
    obtain ⟨h1, h2⟩ := Stand.mark (id := .objs) h (by decide)
    obtain ⟨tz', h3, h4⟩ := skip_obj_end (n := n) h2 (by omega)
    refine ⟨tz', ?_, h4⟩
    unfold ignoreValue
    rw [h1]; exact h3
  | _, _, _, .arr hi, p, us, rest, tz, n, hp, hn, h => by
    simp at hn
    obtain ⟨n, rfl⟩ : ∃ m, n = m + 1 := ⟨n - 1, by omega⟩
    simp only [List.cons_append, List.append_assoc, List.nil_append] at h
    obtain ⟨h1, h2⟩ := Stand.mark (id := .arrs) h (by decide)
    obtain ⟨tz', h3, h4⟩ := skipsElems hi (n := n) (by omega) h2
    refine ⟨tz', ?_, h4⟩
    unfold ignoreValue
    rw [h1]; exact h3
  | _, _, _, .obj hi, p, us, rest, tz, n, hp, hn, h => by
    simp at hn
    obtain ⟨n, rfl⟩ : ∃ m, n = m + 1 := ⟨n - 1, by omega⟩
    simp only [List.cons_append, List.append_assoc, List.nil_append] at h
    obtain ⟨h1, h2⟩ := Stand.mark (id := .objs) h (by decide)
    obtain ⟨tz', h3, h4⟩ := skipsMembers hi (n := n) (by omega) h2
    refine ⟨tz', ?_, h4⟩
    unfold ignoreValue
    rw [h1]; exact h3
theorem skipsElems : {s : Bool} → {xs : JL} → {inner : List Bytes} → LEl s xs inner → ∀ {us : List Bytes} {rest : Bytes} {tz : Tz}
    {n : Nat}, 2 * inner.length + 1 ≤ n → Stand tz (inner ++ b!"]" :: us) rest →
    ∃ tz', ignoreArrLoop n tz = (.ok, tz') ∧ Stand tz' us rest
  | _, _, _, .one (j := j) (a := a) hv, us, rest, tz, n, hn, h => by
    have hl := lv_length hv
    obtain ⟨n, rfl⟩ : ∃ m, n = m + 1 := ⟨n - 1, by omega⟩
    have hid := Stand.head hv h (EndsFor.closer (.inr (.inl rfl)))
    obtain ⟨x, h1, h2⟩ := skips hv (n := n) (.inr (.inl rfl)) (by omega) h
    obtain ⟨h3, h4⟩ := Stand.mark (id := .arre) h2 (by decide)
    refine ⟨x.next, ?_, h4⟩
    unfold ignoreArrLoop
    rw [if_neg (by rw [hid]; exact (headTok_not_sep j).2.1), h1]
    simp only [expect_neg (tz := x) (t := .comma) (by rw [h3]; decide), ignoreArrEnd, expect_pos h3]
  | _, _, _, .trail (j := j) (a := a) hv, us, rest, tz, n, hn, h => by
    have hl := lv_length hv
    simp only [List.length_append, List.length_cons, List.length_nil] at hn
    obtain ⟨n, rfl⟩ : ∃ m, n = m + 1 := ⟨n - 1, by omega⟩
    simp only [List.append_assoc, List.cons_append, List.nil_append] at h
    have hid := Stand.head hv h (EndsFor.closer (.inl rfl))
    obtain ⟨x, h1, h2⟩ := skips hv (n := n) (.inl rfl) (by omega) h
    obtain ⟨h3, h4⟩ := Stand.mark (id := .comma) h2 (by decide)
    obtain ⟨y, h5, h6⟩ := skip_arr_end (n := n) h4 (by omega)
    refine ⟨y, ?_, h6⟩
    unfold ignoreArrLoop
    rw [if_neg (by rw [hid]; exact (headTok_not_sep j).2.1), h1]
    simp only [expect_pos h3]
    exact h5
  | _, _, _, .cons (j := j) (a := a) hv hr, us, rest, tz, n, hn, h => by
    have hl := lv_length hv
    simp only [List.length_append, List.length_cons] at hn
    obtain ⟨n, rfl⟩ : ∃ m, n = m + 1 := ⟨n - 1, by omega⟩
    simp only [List.append_assoc, List.cons_append] at h
    have hid := Stand.head hv h (EndsFor.closer (.inl rfl))
    obtain ⟨x, h1, h2⟩ := skips hv (n := n) (.inl rfl) (by omega) h
    obtain ⟨h3, h4⟩ := Stand.mark (id := .comma) h2 (by decide)
    obtain ⟨y, h5, h6⟩ := skipsElems hr (n := n) (by omega) h4
    refine ⟨y, ?_, h6⟩
    unfold ignoreArrLoop
    rw [if_neg (by rw [hid]; exact (headTok_not_sep j).2.1), h1]
    simp only [expect_pos h3]
    exact h5
theorem skipsMembers : {s : Bool} → {ms : JM} → {inner : List Bytes} → LMe s ms inner → ∀ {us : List Bytes} {rest : Bytes} {tz : Tz}
    {n : Nat}, 2 * inner.length + 1 ≤ n → Stand tz (inner ++ b!"}" :: us) rest →
    ∃ tz', ignoreObjLoop n tz = (.ok, tz') ∧ Stand tz' us rest
  | _, _, _, .one (j := j) (a := a) hk _ hv, us, rest, tz, n, hn, h => by
    have hl := lv_length hv
    simp only [List.length_cons] at hn
    obtain ⟨n, rfl⟩ : ∃ m, n = m + 1 := ⟨n - 1, by omega⟩
    simp only [List.cons_append] at h
    obtain ⟨k1, -, k2⟩ := Stand.key h hk
    obtain ⟨k3, k4⟩ := Stand.mark (id := .colon) k2 (by decide)
    obtain ⟨x, h1, h2⟩ := skips hv (n := n) (.inr (.inr rfl)) (by omega) k4
    obtain ⟨h3, h4⟩ := Stand.mark (id := .obje) h2 (by decide)
    refine ⟨x.next, ?_, h4⟩
    unfold ignoreObjLoop
    rw [if_neg (by rw [k1]; decide)]
    simp only [expect_pos k1, expect_pos k3, h1, expect_neg (tz := x) (t := .comma) (by rw [h3]; decide), ignoreObjEnd, expect_pos h3]
  | _, _, _, .trail (j := j) (a := a) hk hv, us, rest, tz, n, hn, h => by
    have hl := lv_length hv
    simp only [List.length_append, List.length_cons, List.length_nil] at hn
    obtain ⟨n, rfl⟩ : ∃ m, n = m + 1 := ⟨n - 1, by omega⟩
    simp only [List.append_assoc, List.cons_append, List.nil_append] at h
    obtain ⟨k1, -, k2⟩ := Stand.key h hk
    obtain ⟨k3, k4⟩ := Stand.mark (id := .colon) k2 (by decide)
    obtain ⟨x, h1, h2⟩ := skips hv (n := n) (.inl rfl) (by omega) k4
    obtain ⟨h3, h4⟩ := Stand.mark (id := .comma) h2 (by decide)
    obtain ⟨y, h5, h6⟩ := skip_obj_end (n := n) h4 (by omega)
    refine ⟨y, ?_, h6⟩
    unfold ignoreObjLoop
    rw [if_neg (by rw [k1]; decide)]
    simp only [expect_pos k1, expect_pos k3, h1, expect_pos h3]
    exact h5
  | _, _, _, .cons (j := j) (a := a) hk _ hv hr, us, rest, tz, n, hn, h => by
    have hl := lv_length hv
    simp only [List.length_append, List.length_cons] at hn
    obtain ⟨n, rfl⟩ : ∃ m, n = m + 1 := ⟨n - 1, by omega⟩
    simp only [List.append_assoc, List.cons_append] at h
    obtain ⟨k1, -, k2⟩ := Stand.key h hk
    obtain ⟨k3, k4⟩ := Stand.mark (id := .colon) k2 (by decide)
    obtain ⟨x, h1, h2⟩ := skips hv (n := n) (.inl rfl) (by omega) k4
    obtain ⟨h3, h4⟩ := Stand.mark (id := .comma) h2 (by decide)
    obtain ⟨y, h5, h6⟩ := skipsMembers hr (n := n) (by omega) h4
    refine ⟨y, ?_, h6⟩
    unfold ignoreObjLoop
    rw [if_neg (by rw [k1]; decide)]
    simp only [expect_pos k1, expect_pos k3, h1, expect_pos h3]
    exact h5
end

/-- A reader's result is the prescribed one, if that is a success or `null`. -/
def Takes {α : Type} (r : RC × α) (res : Res α) (tz : Tz) (us : List Bytes) (rest : Bytes) : Prop :=
  (r.1 = .ok → ∃ tz', res = (.ok, tz', r.2) ∧ Stand tz' us rest) ∧ (r.1 = .nil → res = (.nil, tz, r.2))

theorem takes_error {α : Type} {v : α} {res : Res α} {tz : Tz} {us : List Bytes} {rest : Bytes} :
    Takes (.error, v) res tz us rest := ⟨fun h => (by cases h), fun h => (by cases h)⟩

theorem takes_ok {α : Type} {v : α} {res : Res α} {tz tz' : Tz} {us : List Bytes} {rest : Bytes} (h : res = (.ok, tz', v))
    (hs : Stand tz' us rest) : Takes (.ok, v) res tz us rest := ⟨fun _ => ⟨tz', h, hs⟩, fun h => (by cases h)⟩

theorem takes_nil {α : Type} {v : α} {res : Res α} {tz : Tz} {us : List Bytes} {rest : Bytes} (h : res = (.nil, tz, v)) :
    Takes (.nil, v) res tz us rest := ⟨fun h => (by cases h), fun _ => h⟩

theorem Single.stand {j : J} {a us : List Bytes} {rest : Bytes} {tz : Tz} (h : Single j a) (hs : Stand tz (a ++ us) rest)
    (he : EndsFor j us rest) : ∃ val, scalarVal j = some val ∧ tz.cur.id = headTok j ∧ tz.cur.value = val ∧ Stand tz.next us rest := by
  obtain ⟨l, rfl, h⟩ := h
  obtain ⟨v, hv⟩ := scalarOf_val h
  exact ⟨v, hv, Stand.scalar hs h hv he⟩

theorem Prim.read_takes (p : Prim) {j : J} {a us : List Bytes} {rest : Bytes} {tz : Tz} (v : p.Den) (h : Single j a)
    (hs : Stand tz (a ++ us) rest) (he : EndsFor j us rest) : Takes (p.absorb j v) (p.read tz v) tz us rest := by
  obtain ⟨val, h0, h1, h2, h3⟩ := h.stand hs he
  cases p with
  | int k =>
    cases j with
    | null => exact takes_nil (by simp [Prim.read, h1, headTok])
    | num l => cases h0; exact takes_ok (by simp [Prim.read, h1, headTok, h2]) h3
    | _ => exact takes_error
  | flt k =>
    cases j with
    | null => exact takes_nil (by simp [Prim.read, h1, headTok])
    | num l => cases h0; exact takes_ok (by simp [Prim.read, h1, headTok, h2]) h3
    | _ => exact takes_error
  | bool =>
    cases j with
    | null => exact takes_nil (by simp [Prim.read, h1, headTok])
    | bool b => cases b <;> exact takes_ok (by simp [Prim.read, h1, headTok]) h3
    | _ => exact takes_error

theorem str_takes {j : J} {a us : List Bytes} {rest : Bytes} {tz : Tz} (v : StrField) (h : Single j a)
    (hs : Stand tz (a ++ us) rest) (he : EndsFor j us rest) : Takes (Ty.absorb .str j v) (StrField.read tz v) tz us rest := by
  obtain ⟨val, h0, h1, h2, h3⟩ := h.stand hs he
  unfold StrField.read stringRead
  cases j with
  | null => exact takes_nil (by simp [h1, headTok, StrField.assignT])
  | str s =>
    cases h0
    have h1 : tz.cur.id = .string := h1
    exact takes_ok (by simp [h1, expect_pos h1, h2, StrField.assignT]) h3
  | _ => exact takes_error

theorem bytes_takes {j : J} {a us : List Bytes} {rest : Bytes} {tz : Tz} (v : List Byte) (h : Single j a)
    (hs : Stand tz (a ++ us) rest) (he : EndsFor j us rest) : Takes (Ty.absorb .bytes j v) (bytesRead tz v) tz us rest := by
  obtain ⟨val, h0, h1, h2, h3⟩ := h.stand hs he
  unfold bytesRead
  cases j with
  | null => exact takes_nil (by simp [h1, headTok])
  | str s =>
    cases h0
    have h1 : tz.cur.id = .string := h1
    refine takes_ok (tz' := if (b64Dec tz.cur.value).2 then (tz.next.error .invalidBase64).2 else tz.next)
      (by simp [h1, h2]) ?_
    split
    · obtain ⟨bs, hu, ha⟩ := h3
      exact ⟨bs, hu, ha.error _⟩
    · exact h3
  | _ => exact takes_error

/-- The element reader behaves on the documents up to a size. -/
def ElemTakes {α : Type} (N : Nat) (P : J → List Bytes → Prop) (f : J → RC × α) (rd : Tz → Res α) : Prop :=
  ∀ (j : J) (a us : List Bytes) (rest : Bytes) (tz : Tz), P j a → a.length ≤ N → EndsFor j us rest → Stand tz (a ++ us) rest →
    Takes (f j) (rd tz) tz us rest

theorem readArrLoop_takes {α : Type} {N : Nat} {P : J → List Bytes → Prop} {f : J → RC × α} {rd : Tz → Res α}
    (hrd : ElemTakes N P f rd) {xs : JL} {inner : List Bytes} (h : ElemsOf P xs inner) :
    ∀ {us : List Bytes} {rest : Bytes} {m : Nat} {tz : Tz} (v w : List α), inner.length ≤ N → inner.length + 1 ≤ m →
      absorbElems f xs v = (.ok, w) → Stand tz (inner ++ b!"]" :: us) rest →
      ∃ tz', readArrLoop rd m tz v = (.ok, tz', w) ∧ Stand tz' us rest := by
  induction h with
  | @one j a hv =>
    intro us rest m tz v w hN hm habs h
    obtain ⟨m, rfl⟩ : ∃ k, m = k + 1 := ⟨m - 1, by omega⟩
    have hT := hrd j a (b!"]" :: us) rest tz hv hN (EndsFor.closer (.inr (.inl rfl))) h
    unfold absorbElems at habs
    rcases hf : f j with ⟨c, x⟩
    rw [hf] at hT habs
    cases c with
    | ok =>
      simp only [absorbElems, Prod.mk.injEq, true_and] at habs
      subst habs
      obtain ⟨y, h1, h2⟩ := hT.1 rfl
      obtain ⟨h3, h4⟩ := Stand.mark (id := .arre) h2 (by decide)
      refine ⟨y.next, ?_, h4⟩
      unfold readArrLoop
      simp only [h1, expect_neg (tz := y) (t := .comma) (by rw [h3]; decide), expect_pos h3, if_true]
    | _ => simp at habs
  | @cons j xs a r hv hr ih =>
    intro us rest m tz v w hN hm habs h
    obtain ⟨m, rfl⟩ : ∃ k, m = k + 1 := ⟨m - 1, by omega⟩
    simp only [List.length_append, List.length_cons] at hN hm
    simp only [List.append_assoc, List.cons_append] at h
    have hT := hrd j a (b!"," :: (r ++ b!"]" :: us)) rest tz hv (by omega) (EndsFor.closer (.inl rfl)) h
    unfold absorbElems at habs
    rcases hf : f j with ⟨c, x⟩
    rw [hf] at hT habs
    cases c with
    | ok =>
      obtain ⟨y, h1, h2⟩ := hT.1 rfl
      obtain ⟨h3, h4⟩ := Stand.mark (id := .comma) h2 (by decide)
      obtain ⟨z, h5, h6⟩ := ih (m := m) (v ++ [x]) w (by omega) (by omega) habs h4
      refine ⟨z, ?_, h6⟩
      unfold readArrLoop
      simp only [h1, expect_pos h3, if_true]
      exact h5
    | _ => simp at habs

theorem ElemsOf.head {P : J → List Bytes → Prop} {xs : JL} {inner : List Bytes} (h : ElemsOf P xs inner)
    (hP : ∀ j a, P j a → ∃ s, Lv s j a) {us : List Bytes} {rest : Bytes} {tz : Tz} (hs : Stand tz (inner ++ b!"]" :: us) rest) :
    tz.cur.id ≠ .arre := by
  cases h with
  | one hv =>
    obtain ⟨s, hl⟩ := hP _ _ hv
    rw [Stand.head hl hs (EndsFor.closer (.inr (.inl rfl)))]
    exact (headTok_not_sep _).2.1
  | cons hv _ =>
    obtain ⟨s, hl⟩ := hP _ _ hv
    simp only [List.append_assoc, List.cons_append] at hs
    rw [Stand.head hl hs (EndsFor.closer (.inl rfl))]
    exact (headTok_not_sep _).2.1

theorem readArr_takes {α : Type} {N n : Nat} {P : J → List Bytes → Prop} {f : J → RC × α} {rd : Tz → Res α}
    (hrd : ElemTakes N P f rd) (hP : ∀ j a, P j a → ∃ s, Lv s j a) {j : J} {a us : List Bytes} {rest : Bytes} {tz : Tz} (v : List α)
    (h : ArrOf P j a) (hN : a.length ≤ N) (hn : a.length ≤ n) (he : EndsFor j us rest) (hs : Stand tz (a ++ us) rest) :
    Takes (match j with | .null => (.nil, v) | .arr xs => absorbElems f xs v | _ => (.error, v)) (readArr rd n tz v) tz us rest := by
  cases j with
  | null =>
    obtain ⟨val, h0, h1, h2, h3⟩ := Single.stand h hs he
    exact takes_nil (by unfold readArr; exact if_pos h1)
  | arr xs =>
    cases xs with
    | nil =>
      obtain rfl : a = [b!"[", b!"]"] := h
      obtain ⟨h1, h2⟩ := Stand.mark (id := .arrs) hs (by decide)
      obtain ⟨h3, h4⟩ := Stand.mark (id := .arre) h2 (by decide)
      refine takes_ok ?_ h4
      unfold readArr
      rw [if_neg (by rw [h1]; decide)]
      simp only [expect_pos h1, expect_pos h3]
    | cons x xs =>
      obtain ⟨inner, rfl, h⟩ := h
      simp only [List.cons_append, List.append_assoc, List.nil_append] at hs
      simp only [List.length_cons, List.length_append, List.length_nil] at hN hn
      obtain ⟨h1, h2⟩ := Stand.mark (id := .arrs) hs (by decide)
      have h3 := h.head hP h2
      have hne : ∀ c w, absorbElems f (.cons x xs) v = (c, w) → c ≠ .nil := by
        have key : ∀ (ys : JL) (v : List α), (absorbElems f ys v).1 ≠ .nil := by
          intro ys
          induction ys using JL.rec (motive_1 := fun _ => True) (motive_3 := fun _ => True) with
          | cons j t _ ih =>
            intro v
            unfold absorbElems
            split
            · exact ih _
            · simp
          | nil => intro v; simp [absorbElems]
          | _ => trivial
        intro c w hh hc
        exact key (.cons x xs) v (by rw [hh, hc])
      refine ⟨fun hok => ?_, fun hnil => absurd hnil (hne _ _ rfl)⟩
      obtain ⟨y, h4, h5⟩ := readArrLoop_takes hrd h (m := n) v (absorbElems f (.cons x xs) v).2 (by omega) (by omega)
        (by rw [← hok]) h2
      refine ⟨y, ?_, h5⟩
      unfold readArr
      rw [if_neg (by rw [h1]; decide)]
      simp only [expect_pos h1, expect_neg h3]
      exact h4
  | _ => exact takes_error

/-- The field reader behaves on the documents up to a size. -/
def MembTakes {α : Type} (N : Nat) (P : Bytes → J → List Bytes → Prop) (f : Bytes → J → α → RC × α) (rf : Bytes → Tz → α → Res α) :
    Prop :=
  ∀ (k : Bytes) (j : J) (a us : List Bytes) (rest : Bytes) (tz : Tz) (v : α), P k j a → a.length ≤ N → EndsFor j us rest →
    Stand tz (a ++ us) rest → Takes (f k j v) (rf k tz v) tz us rest

theorem readObjLoop_takes {α : Type} {N : Nat} {P : Bytes → J → List Bytes → Prop} {f : Bytes → J → α → RC × α}
    {rf : Bytes → Tz → α → Res α} (hrf : MembTakes N P f rf) (hP : ∀ k j a, P k j a → ∃ s, Lv s j a) {ms : JM} {inner : List Bytes}
    (h : MembersOf P ms inner) :
    ∀ {us : List Bytes} {rest : Bytes} {m : Nat} {tz : Tz} (v w : α), inner.length ≤ N → 2 * inner.length + 1 ≤ m →
      absorbMembers f ms v = (.ok, w) → Stand tz (inner ++ b!"}" :: us) rest →
      ∃ tz', readObjLoop rf m tz v = (.ok, tz', w) ∧ Stand tz' us rest := by
  induction h with
  | @one k l j a hk hv =>
    intro us rest m tz v w hN hm habs h
    simp only [List.length_cons] at hN hm
    obtain ⟨m, rfl⟩ : ∃ k, m = k + 1 := ⟨m - 1, by omega⟩
    simp only [List.cons_append] at h
    obtain ⟨k1, k0, k2⟩ := Stand.key h hk
    obtain ⟨k3, k4⟩ := Stand.mark (id := .colon) k2 (by decide)
    have hT := hrf k j a (b!"}" :: us) rest _ v hv (by omega) (EndsFor.closer (.inr (.inr rfl))) k4
    unfold absorbMembers at habs
    rcases hf : f k j v with ⟨c, x⟩
    rw [hf] at hT habs
    cases c with
    | ok =>
      simp only [absorbMembers, Prod.mk.injEq, true_and] at habs
      subst habs
      obtain ⟨y, h1, h2⟩ := hT.1 rfl
      obtain ⟨h3, h4⟩ := Stand.mark (id := .obje) h2 (by decide)
      refine ⟨y.next, ?_, h4⟩
      unfold readObjLoop
      simp only [k0, expect_pos k1, expect_pos k3, h1, objStep, expect_neg (tz := y) (t := .comma) (by rw [h3]; decide), expect_pos h3]
    | nil =>
      simp only [absorbMembers, Prod.mk.injEq, true_and] at habs
      subst habs
      obtain ⟨s, hl⟩ := hP _ _ _ hv
      obtain ⟨y, h1, h2⟩ := skips hl (n := m) (.inr (.inr rfl)) (by omega) k4
      obtain ⟨h3, h4⟩ := Stand.mark (id := .obje) h2 (by decide)
      refine ⟨y.next, ?_, h4⟩
      unfold readObjLoop
      simp only [k0, expect_pos k1, expect_pos k3, hT.2 rfl, h1, objStep, expect_neg (tz := y) (t := .comma) (by rw [h3]; decide),
        expect_pos h3]
    | _ => simp at habs
  | @cons k l j ms a r hk hv hr ih =>
    intro us rest m tz v w hN hm habs h
    simp only [List.length_cons, List.length_append] at hN hm
    obtain ⟨m, rfl⟩ : ∃ k, m = k + 1 := ⟨m - 1, by omega⟩
    simp only [List.cons_append, List.append_assoc] at h
    obtain ⟨k1, k0, k2⟩ := Stand.key h hk
    obtain ⟨k3, k4⟩ := Stand.mark (id := .colon) k2 (by decide)
    have hT := hrf k j a (b!"," :: (r ++ b!"}" :: us)) rest _ v hv (by omega) (EndsFor.closer (.inl rfl)) k4
    unfold absorbMembers at habs
    rcases hf : f k j v with ⟨c, x⟩
    rw [hf] at hT habs
    cases c with
    | ok =>
      obtain ⟨y, h1, h2⟩ := hT.1 rfl
      obtain ⟨h3, h4⟩ := Stand.mark (id := .comma) h2 (by decide)
      obtain ⟨z, h5, h6⟩ := ih (m := m) x w (by omega) (by omega) habs h4
      refine ⟨z, ?_, h6⟩
      unfold readObjLoop
      simp only [k0, expect_pos k1, expect_pos k3, h1, objStep, expect_pos h3]
      exact h5
    | nil =>
      obtain ⟨s, hl⟩ := hP _ _ _ hv
      obtain ⟨y, h1, h2⟩ := skips hl (n := m) (.inl rfl) (by omega) k4
      obtain ⟨h3, h4⟩ := Stand.mark (id := .comma) h2 (by decide)
      obtain ⟨z, h5, h6⟩ := ih (m := m) x w (by omega) (by omega) habs h4
      refine ⟨z, ?_, h6⟩
      unfold readObjLoop
      simp only [k0, expect_pos k1, expect_pos k3, hT.2 rfl, h1, objStep, expect_pos h3]
      exact h5
    | _ => simp at habs

theorem MembersOf.head {P : Bytes → J → List Bytes → Prop} {ms : JM} {inner us : List Bytes} (h : MembersOf P ms inner)
    {rest : Bytes} {tz : Tz} (hs : Stand tz (inner ++ us) rest) : tz.cur.id ≠ .obje := by
  cases h with
  | one hk _ => rw [(Stand.key hs hk).1]; decide
  | cons hk _ _ => rw [(Stand.key hs hk).1]; decide

theorem absorbMembers_rc {α : Type} (f : Bytes → J → α → RC × α) : (ms : JM) → (v : α) → (absorbMembers f ms v).1 ≠ .nil
  | .nil, v => by simp [absorbMembers]
  | .cons k j t, v => by
    unfold absorbMembers
    split
    · exact absorbMembers_rc f t _
    · exact absorbMembers_rc f t _
    · simp

theorem readObj_takes {α : Type} {N n : Nat} {P : Bytes → J → List Bytes → Prop} {f : Bytes → J → α → RC × α}
    {rf : Bytes → Tz → α → Res α} (hrf : MembTakes N P f rf) (hP : ∀ k j a, P k j a → ∃ s, Lv s j a)
    {j : J} {a us : List Bytes} {rest : Bytes} {tz : Tz} (v : α)
    (h : ObjOf P j a) (hN : a.length ≤ N) (hn : 2 * a.length ≤ n) (he : EndsFor j us rest) (hs : Stand tz (a ++ us) rest) :
    Takes (match j with | .null => (.nil, v) | .obj ms => absorbMembers f ms v | _ => (.error, v)) (readObj rf n tz v) tz us rest := by
  cases j with
  | null =>
    obtain ⟨val, h0, h1, h2, h3⟩ := Single.stand h hs he
    exact takes_nil (by unfold readObj; exact if_pos h1)
  | obj ms =>
    cases ms with
    | nil =>
      obtain rfl : a = [b!"{", b!"}"] := h
      obtain ⟨h1, h2⟩ := Stand.mark (id := .objs) hs (by decide)
      obtain ⟨h3, h4⟩ := Stand.mark (id := .obje) h2 (by decide)
      refine takes_ok ?_ h4
      unfold readObj
      rw [if_neg (by rw [h1]; decide)]
      simp only [expect_pos h1, expect_pos h3]
    | cons k x ms =>
      obtain ⟨inner, rfl, h⟩ := h
      simp only [List.cons_append, List.append_assoc, List.nil_append] at hs
      simp only [List.length_cons, List.length_append, List.length_nil] at hN hn
      obtain ⟨h1, h2⟩ := Stand.mark (id := .objs) hs (by decide)
      have h3 := h.head h2
      refine ⟨fun hok => ?_, fun hnil => absurd hnil (absorbMembers_rc _ _ _)⟩
      obtain ⟨y, h4, h5⟩ := readObjLoop_takes hrf hP h (m := n) v (absorbMembers f (.cons k x ms) v).2 (by omega) (by omega)
        (by rw [← hok]) h2
      refine ⟨y, ?_, h5⟩
      unfold readObj
      rw [if_neg (by rw [h1]; decide)]
      simp only [expect_pos h1, expect_neg h3]
      exact h4
  | _ => exact takes_error

theorem Single.lv {j : J} {a : List Bytes} (h : Single j a) (s : Bool) : Lv s j a := by
  obtain ⟨l, rfl, h⟩ := h
  exact .tok h

theorem ElemsOf.lel {P : J → List Bytes → Prop} {xs : JL} {inner : List Bytes} (h : ElemsOf P xs inner) {s : Bool}
    (hP : ∀ j a, P j a → Lv s j a) : LEl s xs inner := by
  induction h with
  | one hv => exact .one (hP _ _ hv)
  | cons hv _ ih => exact .cons (hP _ _ hv) ih

theorem MembersOf.lme {P : Bytes → J → List Bytes → Prop} {ms : JM} {inner : List Bytes} (h : MembersOf P ms inner)
    (hP : ∀ k j a, P k j a → ∃ s, Lv s j a) : LMe true ms inner := by
  induction h with
  | one hk hv => obtain ⟨s, hl⟩ := hP _ _ _ hv; exact .one hk (fun _ => rfl) hl
  | cons hk hv _ ih => obtain ⟨s, hl⟩ := hP _ _ _ hv; exact .cons hk (fun _ => rfl) hl ih

mutual
/-- The documents a type reads are documents of the strict grammar. -/
theorem Reads.lv : (t : Ty) → {j : J} → {a : List Bytes} → Reads t j a → Lv true j a
  | .num _, _, _, h => Single.lv h _
  | .raw _, _, _, h => Single.lv h _
  | .str, _, _, h => Single.lv h _
  | .bytes, _, _, h => Single.lv h _
  | .rep t, j, a, h => by
    rw [reads_rep] at h
    cases j with
    | arr xs =>
      cases xs with
      | nil => obtain rfl : a = _ := h; exact .arr0
      | cons x xs => obtain ⟨inner, rfl, h⟩ := h; exact .arr (h.lel fun _ _ => Reads.lv t)
    | _ => exact Single.lv h _
  | .msg obf fs, j, a, h => by
    rw [reads_msg] at h
    cases j with
    | obj ms =>
      cases ms with
      | nil => obtain rfl : a = _ := h; exact .obj0
      | cons k x ms =>
        obtain ⟨inner, rfl, h⟩ := h
        refine .obj (h.lme fun k j a hv => ?_)
        unfold ReadsKey at hv
        split at hv
        · exact ⟨_, hv⟩
        · exact ReadsAt.lv fs _ hv
    | _ => exact Single.lv h _
theorem ReadsAt.lv : (fs : Fields) → (i : Nat) → {j : J} → {a : List Bytes} → ReadsAt fs i j a → ∃ s, Lv s j a
  | .nil, i, j, a, h => by unfold ReadsAt at h; exact ⟨_, h⟩
  | .cons f t rest, i, j, a, h => by
    unfold ReadsAt at h
    split at h
    · exact ReadsAt.lv rest _ h
    · split at h
      · exact ⟨_, Reads.lv t h⟩
      · exact ReadsAt.lv rest _ h
end

theorem readsKey_lv (obf : Bool) (fs : Fields) (k : Bytes) (j : J) (a : List Bytes) (h : ReadsKey obf fs k j a) : ∃ s, Lv s j a := by
  unfold ReadsKey at h
  split at h
  · exact ⟨_, h⟩
  · exact ReadsAt.lv fs _ h

theorem Takes.map {α β : Type} (g : α → β) {r : RC × α} {res : Res α} {tz : Tz} {us : List Bytes} {rest : Bytes}
    (h : Takes r res tz us rest) : Takes (r.1, g r.2) (res.1, res.2.1, g res.2.2) tz us rest := by
  refine ⟨fun hok => ?_, fun hnil => ?_⟩
  · obtain ⟨tz', h1, h2⟩ := h.1 hok
    exact ⟨tz', by rw [h1], h2⟩
  · rw [h.2 hnil]

mutual
/-- **Completeness**: a document the type reads is read, with the prescribed result. -/
theorem Ty.read_takes : (t : Ty) → ∀ (n : Nat) {j : J} {a us : List Bytes} {rest : Bytes} {tz : Tz} (v : t.Den), Reads t j a →
    2 * a.length ≤ n → EndsFor j us rest → Stand tz (a ++ us) rest → Takes (t.absorb j v) (t.read n tz v) tz us rest
  | .num p, n, j, a, us, rest, tz, v, h, hn, he, hs => by
    have hT := Prim.read_takes p p.zero h hs he
    simp only [Ty.absorb, Ty.read, NumField.read]
    refine ⟨fun hok => ?_, fun hnil => ?_⟩
    · obtain ⟨tz', h1, h2⟩ := hT.1 hok
      simp only at hok
      exact ⟨tz', by rw [h1, hok]; rfl, h2⟩
    · have h1 := hT.2 hnil
      simp only at hnil
      rw [h1, hnil]; rfl
  | .raw p, n, j, a, us, rest, tz, v, h, hn, he, hs => Prim.read_takes p v h hs he
  | .str, n, j, a, us, rest, tz, v, h, hn, he, hs => str_takes v h hs he
  | .bytes, n, j, a, us, rest, tz, v, h, hn, he, hs => bytes_takes v h hs he
  | .rep t, n, j, a, us, rest, tz, v, h, hn, he, hs => by
    rw [reads_rep] at h
    have hE : ElemTakes a.length (Reads t) (fun j => t.absorb j t.new) (fun tz => t.read n tz t.new) := by
      intro j' a' us' rest' tz' h' hl' he' hs'
      exact Ty.read_takes t n t.new h' (by omega) he' hs'
    have := readArr_takes (n := n) hE (fun _ _ h => ⟨_, Reads.lv t h⟩) v h (Nat.le_refl _) (by omega) he hs
    cases j <;> exact this
  | .msg obf fs, n, j, a, us, rest, tz, v, h, hn, he, hs => by
    rw [reads_msg] at h
    have hM : MembTakes a.length (ReadsKey obf fs)
        (fun k j (v : fs.Den) => match indexOf obf fs k with | none => (.nil, v) | some i => fs.absorbAt i j v)
        (fun name tz v => match indexOf obf fs name with | none => (.nil, tz, v) | some i => fs.readAt i n tz v) := by
      intro k j' a' us' rest' tz' v' h' hl' he' hs'
      unfold ReadsKey at h'
      simp only
      cases hi : indexOf obf fs k with
      | none => exact takes_nil rfl
      | some i => rw [hi] at h'; exact Fields.readAt_takes fs i n v' h' (by omega) he' hs'
    have := readObj_takes hM (readsKey_lv obf fs) v h (Nat.le_refl _) hn he hs
    cases j <;> exact this
theorem Fields.readAt_takes : (fs : Fields) → ∀ (i n : Nat) {j : J} {a us : List Bytes} {rest : Bytes} {tz : Tz} (v : fs.Den),
    ReadsAt fs i j a → 2 * a.length ≤ n → EndsFor j us rest → Stand tz (a ++ us) rest →
    Takes (fs.absorbAt i j v) (fs.readAt i n tz v) tz us rest
  | .nil, i, n, j, a, us, rest, tz, v, h, hn, he, hs => takes_nil rfl
  | .cons f t rst, i, n, j, a, us, rest, tz, v, h, hn, he, hs => by
    unfold ReadsAt at h
    unfold Fields.absorbAt Fields.readAt
    cases hf : f.transient with
    | true =>
      rw [hf] at h
      exact (Fields.readAt_takes rst i n v.2 h hn he hs).map (fun x => (v.1, x))
    | false =>
      rw [hf] at h
      cases i with
      | zero => exact (Ty.read_takes t n v.1 h hn he hs).map (fun x => (x, v.2))
      | succ i => exact (Fields.readAt_takes rst i n v.2 h hn he hs).map (fun x => (v.1, x))
end

end PG
