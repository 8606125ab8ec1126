import Verif.Spec.Encode
import Verif.Spec.Absorb
import Verif.Proofs.StrText
import Verif.Proofs.FltText
import Verif.Proofs.B64
/-
The writers emit a text of the object's JSON value.
-/
set_option autoImplicit false
namespace PG

/-- A lexical grammar the writers conform to, when all bytes of strings are `ok`. -/
structure LexOk (L : Lexis) (ok : Byte → Prop) : Prop where
  ex : ∃ raw uni, L.str = StrChars raw uni ∧ (∀ b, ok b → hasShort b = false → raw b) ∧ (∀ b, rfcRaw b → raw b) ∧
    (∀ cp, 0x80 ≤ cp → uni cp)
  num : ∀ l, RfcNum l → L.num l

theorem hasShort_false {b : Byte} (h : hasShort b = false) : b ≠ c!"\"" ∧ b ≠ c!"\\" ∧ b ≠ 10 := by
  simp only [hasShort, Bool.or_eq_false_iff, beq_eq_false_iff_ne] at h
  exact ⟨h.1.1.1.1.1.1.1, h.1.1.1.1.1.1.2, h.1.2⟩

theorem lexOk_wide : LexOk wide (fun b => b ≠ 0) where
  ex := by
    refine ⟨_, _, rfl, ?_, ?_, fun _ h => h⟩
    · intro b h1 h2
      have := hasShort_false h2
      exact ⟨h1, this.2.2, this.1, this.2.1⟩
    · rintro b ⟨h1, h2, h3⟩
      refine ⟨?_, ?_, h2, h3⟩ <;> (intro h; subst h; exact absurd h1 (by decide))
  num := fun _ h => h.sloppy

/-- Bytes of strings the writer turns into valid RFC 8259 text: no control characters other than those with a short
escape. -/
def rfcOk (b : Byte) : Prop := 32 ≤ b ∨ b ∈ [8, 9, 10, 12, 13]

theorem lexOk_rfc : LexOk rfc rfcOk where
  ex := by
    refine ⟨_, _, rfl, ?_, fun _ h => h, fun _ _ => trivial⟩
    intro b h1 h2
    have h3 := hasShort_false h2
    refine ⟨?_, h3.1, h3.2.1⟩
    rcases h1 with h1 | h1
    · exact h1
    · simp only [List.mem_cons, List.not_mem_nil, or_false] at h1
      rcases h1 with rfl | rfl | rfl | rfl | rfl <;> exact absurd h2 (by decide)
  num := fun _ h => h

theorem strBody_lex {L : Lexis} {ok : Byte → Prop} (hL : LexOk L ok) {ascii : Bool} {s : Bytes} (h : StrOk ok ascii s) :
    (strBody ascii s).2 = true ∧ L.str (strBody ascii s).1 s := by
  obtain ⟨raw, uni, he, h1, h2, h3⟩ := hL.ex
  rw [he]
  cases ascii with
  | false => exact strBody_raw s (fun b hb => h1 b (h.1 b hb))
  | true =>
    obtain ⟨cps, hc, hs⟩ := h.2 rfl
    subst hs
    refine strBody_ascii cps hc ?_ (fun cp _ h _ => h3 cp h)
    intro cp hcp hlt
    refine h1 _ (h.1 _ ?_)
    unfold utf8All
    rw [List.mem_flatMap]
    refine ⟨cp, hcp, ?_⟩
    unfold utf8
    rw [if_pos hlt]
    simp [byte]

theorem label_lex {L : Lexis} {ok : Byte → Prop} (hL : LexOk L ok) {s : Bytes} (h : ∀ b ∈ s, rfcRaw b) : L.str s s := by
  obtain ⟨raw, uni, he, h1, h2, h3⟩ := hL.ex
  rw [he]
  exact chars_raw s (fun b hb => h2 b (h b hb))

theorem printfF_rfcNum {x : Flt} (h : ∃ neg m, x = .fin neg m) : RfcNum (printfF x) := by
  obtain ⟨neg, m, rfl⟩ := h
  exact fixed6_rfcNum neg _

theorem Prim.text_eq (p : Prim) (v : p.Den) (h : p.Finite v) {L : Lexis} {ok : Byte → Prop} (hL : LexOk L ok) :
    JVal L (p.toJ v) (p.text v) := by
  cases p with
  | int k => exact ⟨rfl, hL.num _ (decInt_rfcNum _)⟩
  | flt k =>
    refine ⟨?_, hL.num _ (printfF_rfcNum h)⟩
    obtain ⟨neg, m, hv⟩ := h
    obtain ⟨x, hx⟩ := v
    simp only at hv
    subst hv
    exact textOfFlt_fin hx
  | bool =>
    show JVal L (.bool v) _
    cases (show Bool from v) <;> simp [JVal, Prim.text] <;> rfl

theorem Ws.nil : Ws [] := by intro b h; simp at h

theorem writeElems_ok {α : Type} {L : Lexis} {wr : α → ErrInfo → WRes} {f : α → J} {xs : List α} {e : ErrInfo}
    (h : ∀ x ∈ xs, ∃ b, wr x e = (.ok, b, e) ∧ JVal L (f x) b) :
    ∃ b, writeElems wr xs e = (b, e) ∧ JElems L (elemsToJ f xs) b := by
  induction xs with
  | nil => exact ⟨[], rfl, Ws.nil⟩
  | cons x t ih =>
    obtain ⟨b, hb, hj⟩ := h x (by simp)
    cases t with
    | nil =>
      refine ⟨b, by simp [writeElems, hb], ?_⟩
      exact ⟨[], b, [], by simp, Ws.nil, hj, Ws.nil⟩
    | cons y t =>
      obtain ⟨b', hb', hj'⟩ := ih (fun x hx => h x (by simp at hx ⊢; exact .inr hx))
      refine ⟨b ++ c!"," :: b', by simp [writeElems, hb, hb'], ?_⟩
      exact ⟨[], b, [], b', by simp, Ws.nil, hj, Ws.nil, hj'⟩

/-- The members' text, with the comma that precedes it when it does not come first. -/
def MembText (L : Lexis) (ms : JM) (first : Bool) (bs : Bytes) : Prop :=
  match ms with
  | .nil => bs = []
  | ms => if first then JMembers L ms bs else ∃ r, bs = c!"," :: r ∧ JMembers L ms r

theorem MembText.cons {L : Lexis} {k : Bytes} {j : J} {ms : JM} {first : Bool} {b r : Bytes} (hk : L.str k k) (hj : JVal L j b)
    (h : MembText L ms false r) :
    MembText L (.cons k j ms) first ((if first then b!"\"" else b!",\"") ++ k ++ b!"\":" ++ b ++ r) := by
  have key : JMembers L (.cons k j ms) (b!"\"" ++ k ++ b!"\":" ++ b ++ r) := by
    cases ms with
    | nil =>
      simp only [MembText] at h
      subst h
      exact ⟨[], k, [], [], b, [], by simp, Ws.nil, hk, Ws.nil, Ws.nil, hj, Ws.nil⟩
    | cons k' j' t =>
      simp only [MembText, Bool.false_eq_true, if_false] at h
      obtain ⟨r', hr, hm⟩ := h
      subst hr
      exact ⟨[], k, [], [], b, [], r', by simp, Ws.nil, hk, Ws.nil, Ws.nil, hj, Ws.nil, hm⟩
  cases first with
  | true => exact key
  | false => exact ⟨_, by simp, key⟩

mutual

theorem Ty.write_ok {L : Lexis} {ok : Byte → Prop} (hL : LexOk L ok) (p : Params) : (t : Ty) → (v : t.Den) → (e : ErrInfo) →
    t.LabelsOk → t.Writable ok p.ensureAscii v → ∃ b, t.write p v e = (.ok, b, e) ∧ JVal L (t.toJ p.serializeNull v) b
  | .num q, v, e, _, hw => by
    simp only [Ty.write, Ty.toJ]
    cases he : v.empty with
    | true => exact ⟨_, rfl, rfl⟩
    | false => exact ⟨_, rfl, Prim.text_eq q v.value (hw he) hL⟩
  | .raw q, v, e, _, hw => ⟨_, rfl, Prim.text_eq q v hw hL⟩
  | .str, v, e, _, hw => by
    simp only [Ty.write, Ty.toJ]
    cases he : v.empty with
    | true =>
      have he' := he
      simp only [StrField.empty] at he'
      rw [he']
      exact ⟨_, rfl, rfl⟩
    | false =>
      have h := strBody_lex hL (hw he)
      have he' := he
      simp only [StrField.empty] at he'
      rw [he']
      refine ⟨c!"\"" :: ((strBody p.ensureAscii v.value).1 ++ [c!"\""]), ?_, _, rfl, h.2⟩
      simp [stringWrite, h.1]
  | .bytes, v, e, _, _ => by
    refine ⟨_, rfl, base64 v, ?_, label_lex hL (fun b hb => (base64_raw v b hb).1)⟩
    rw [b64Enc_eq]; rfl
  | .rep t, v, e, hl, hw => by
    obtain ⟨b, hb, hj⟩ := writeElems_ok (L := L) (wr := t.write p) (f := t.toJ p.serializeNull) (xs := v) (e := e)
      (fun x hx => Ty.write_ok hL p t x e hl (hw x hx))
    exact ⟨c!"[" :: b ++ [c!"]"], by simp only [Ty.write, hb], b, rfl, hj⟩
  | .msg _ fs, v, e, hl, hw => by
    obtain ⟨b, hb, hj⟩ := Fields.write_ok hL p fs v true e hl hw
    refine ⟨c!"{" :: b ++ [c!"}"], by simp only [Ty.write, hb], b, rfl, ?_⟩
    revert hj
    cases fs.toJ p.serializeNull v with
    | nil => intro h; simp only [MembText] at h; subst h; exact Ws.nil
    | cons k j t => exact fun h => h

theorem Fields.write_ok {L : Lexis} {ok : Byte → Prop} (hL : LexOk L ok) (p : Params) : (fs : Fields) → (v : fs.Den) →
    (first : Bool) → (e : ErrInfo) → fs.LabelsOk → fs.Writable ok p.ensureAscii v →
    ∃ b, fs.write p v first e = (b, e) ∧ MembText L (fs.toJ p.serializeNull v) first b
  | .nil, v, first, e, _, _ => ⟨[], rfl, rfl⟩
  | .cons f t rest, v, first, e, hl, hw => by
    unfold Fields.LabelsOk at hl
    unfold Fields.Writable at hw
    unfold Fields.write Fields.toJ
    cases hf : f.transient with
    | true =>
      simp only [if_true]
      exact Fields.write_ok hL p rest v.2 first e hl.2.2 hw.2
    | false =>
      simp only [Bool.false_eq_true, if_false]
      split
      · obtain ⟨b, hb, hj⟩ := Ty.write_ok hL p t v.1 e hl.2.1 (hw.1 hf)
        obtain ⟨r, hr, hm⟩ := Fields.write_ok hL p rest v.2 false e hl.2.2 hw.2
        simp only [hb, hr]
        exact ⟨_, rfl, MembText.cons (label_lex hL (hl.1 hf)) hj hm⟩
      · exact Fields.write_ok hL p rest v.2 first e hl.2.2 hw.2

end

end PG
