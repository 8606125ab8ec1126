import Verif.Spec.Size
import Verif.Props.Streams
import Verif.Proofs.FltText
import Verif.Proofs.Fuel
/-
C80: what is read is never larger than the text it is read from.
C81: what is written fits in a room known beforehand.
-/
set_option autoImplicit false
set_option exponentiation.threshold 3000
namespace PG

/-! ### C81 -/

theorem decInt_length {i : Int} {k : Nat} (hk : 1 ≤ k) (h : i.natAbs < 10 ^ k) : (decInt i).length ≤ k + if i < 0 then 1 else 0 := by
  have := decNat_length hk h
  unfold decInt
  split
  · simp only [List.length_cons]; omega
  · omega

theorem textOfInt_length {k : IKind} (v : CInt k) : (textOfInt v).length ≤ Prim.digits (.int k) := by
  have h1 := v.lo_le
  have h2 := v.le_hi
  unfold textOfInt
  cases k
  · rw [show IKind.lo .i32 = -2147483648 by decide] at h1
    rw [show IKind.hi .i32 = 2147483647 by decide] at h2
    have := decInt_length (i := v.val) (k := 10) (by omega) (by omega)
    simp only [Prim.digits]
    split at this <;> omega
  · rw [show IKind.lo .i64 = -9223372036854775808 by decide] at h1
    rw [show IKind.hi .i64 = 9223372036854775807 by decide] at h2
    have := decInt_length (i := v.val) (k := 19) (by omega) (by omega)
    simp only [Prim.digits]
    split at this <;> omega
  · rw [show IKind.lo .u32 = 0 by decide] at h1
    rw [show IKind.hi .u32 = 4294967295 by decide] at h2
    have := decInt_length (i := v.val) (k := 10) (by omega) (by omega)
    simp only [Prim.digits]
    split at this <;> omega
  · rw [show IKind.lo .u64 = 0 by decide] at h1
    rw [show IKind.hi .u64 = 18446744073709551615 by decide] at h2
    have := decInt_length (i := v.val) (k := 20) (by omega) (by omega)
    simp only [Prim.digits]
    split at this <;> omega
  · rw [show IKind.lo .u8 = 0 by decide] at h1
    rw [show IKind.hi .u8 = 255 by decide] at h2
    have := decInt_length (i := v.val) (k := 3) (by omega) (by omega)
    simp only [Prim.digits]
    split at this <;> omega

theorem signed32_length (neg : Bool) {q : Nat} (h : q / 1000000 < 10 ^ 39) :
    (if neg then c!"-" :: fixed6 q else fixed6 q).length ≤ 47 := by
  have h4 := decNat_length (k := 39) (Nat.le_add_left 1 38) h
  have h5 : (fixed6 q).length ≤ 46 := by
    unfold fixed6
    rw [List.length_append, List.length_cons, dec6_length]
    exact Nat.add_le_add_right h4 7
  split
  · exact Nat.succ_le_succ h5
  · exact Nat.le_succ_of_le h5

theorem printf32_length (neg : Bool) (m : Nat) (h : m < 2 ^ 1202) : (printfF (.fin neg m)).length ≤ 47 := by
  have h1 : m * 1000000 / 2 ^ 1074 < 2 ^ 128 * 1000000 := by
    rw [Nat.div_lt_iff_lt_mul (Nat.two_pow_pos _)]
    calc m * 1000000 < 2 ^ 1202 * 1000000 := Nat.mul_lt_mul_of_pos_right h (by omega)
      _ = 2 ^ 128 * 1000000 * 2 ^ 1074 := by decide +kernel
  have h2 := rhe_le (m * 1000000) (2 ^ 1074)
  have h3 : rhe (m * 1000000) (2 ^ 1074) / 1000000 < 10 ^ 39 := by
    rw [Nat.div_lt_iff_lt_mul (by omega)]
    have : 2 ^ 128 * 1000000 < 10 ^ 39 * 1000000 := by decide +kernel
    omega
  have h4 := signed32_length neg h3
  unfold printfF
  exact h4

theorem textOfFlt_length {k : FKind} (v : CFlt k) : (textOfFlt v).length ≤ Prim.digits (.flt k) := by
  obtain ⟨x, hx⟩ := v
  unfold textOfFlt
  have ht : ((printfF x).take 318).length ≤ (printfF x).length := by rw [List.length_take]; exact Nat.min_le_right _ _
  refine Nat.le_trans ht ?_
  cases x with
  | nan => cases k <;> decide
  | inf neg => cases k <;> cases neg <;> decide
  | fin neg m =>
    cases k with
    | f32 => exact printf32_length neg m hx.1
    | f64 => exact printfF_length .f64 neg m hx.1

theorem Prim.text_length (p : Prim) (v : p.Den) : (p.text v).length ≤ p.digits := by
  cases p with
  | int k => exact textOfInt_length v
  | flt k => exact textOfFlt_length v
  | bool => cases v <;> decide

theorem escByte_length (b : Byte) : (escByte b).length ≤ 2 := by
  unfold escByte
  repeat' split
  all_goals simp

theorem escU_length (n : Nat) : (escU n).length ≤ 6 := by
  unfold escU; rw [List.length_take]; exact Nat.min_le_left _ _

theorem strBody_length (ascii : Bool) (v : Bytes) : (strBody ascii v).1.length ≤ (if ascii then 3 else 2) * v.length := by
  induction h : v.length using Nat.strongRecOn generalizing v with
  | ind k ih =>
    subst h
    cases v with
    | nil => unfold strBody; simp
    | cons b t =>
      have e1 := escByte_length b
      unfold strBody
      split
      · have := ih t.length (by simp) t rfl
        simp only [List.length_append, List.length_cons]
        cases ascii <;> simp only [Bool.false_eq_true, if_false, if_true] at this ⊢ <;> omega
      · cases ascii with
        | false =>
          have := ih t.length (by simp) t rfl
          simp only [Bool.not_false, if_true, List.length_cons, Bool.false_eq_true, if_false] at this ⊢
          omega
        | true =>
          simp only [Bool.not_true, Bool.false_eq_true, if_false, if_true] at ih ⊢
          match t with
          | [] => simp
          | b2 :: t2 =>
            simp only
            split
            · have := ih t2.length (by simp only [List.length_cons]; omega) t2 rfl
              have h6 := escU_length (((b.toNat &&& 0x1F) <<< 6) ||| (b2.toNat &&& 0x3F))
              simp only [List.length_append, List.length_cons]
              omega
            · match t2 with
              | [] => simp
              | b3 :: t3 =>
                simp only
                split
                · have := ih t3.length (by simp only [List.length_cons]; omega) t3 rfl
                  simp only [List.length_append, List.length_cons]
                  refine Nat.le_trans (Nat.add_le_add (escU_length _) this) ?_
                  omega
                · match t3 with
                  | [] => simp
                  | b4 :: t4 =>
                    simp only
                    split
                    · have := ih t4.length (by simp only [List.length_cons]; omega) t4 rfl
                      simp only [List.length_append, List.length_cons]
                      refine Nat.le_trans (Nat.add_le_add (Nat.add_le_add (escU_length _) (escU_length _)) this) ?_
                      omega
                    · simp

theorem stringWrite_length (ascii : Bool) (v : Bytes) (e : ErrInfo) :
    (stringWrite ascii v e).2.1.length ≤ 2 + (if ascii then 3 else 2) * v.length := by
  have := strBody_length ascii v
  unfold stringWrite
  simp only
  split
  · simp only [List.length_append, List.length_cons, List.length_nil]; omega
  · simp only [List.length_cons]; omega

theorem b64Enc_length (v : Bytes) : (b64Enc v).length = 4 * ((v.length + 2) / 3) := by
  induction h : v.length using Nat.strongRecOn generalizing v with
  | ind k ih =>
    subst h
    match v with
    | [] => rfl
    | [_] => simp [b64Enc]
    | [_, _] => simp [b64Enc]
    | a :: b :: c :: t =>
      have := ih t.length (by simp only [List.length_cons]; omega) t rfl
      unfold b64Enc
      simp only [List.length_append, List.length_cons, List.length_nil]
      omega

theorem writeElems_length {α : Type} {wr : α → ErrInfo → WRes} {room : α → Nat}
    (h : ∀ x e, (wr x e).2.1.length ≤ room x) : ∀ (xs : List α) (e : ErrInfo),
    (writeElems wr xs e).1.length + 1 ≤ max 1 (xs.map fun x => 1 + room x).sum
  | [], e => by simp [writeElems]
  | [x], e => by
    have := h x e
    simp only [writeElems, List.map_cons, List.map_nil, List.sum_cons, List.sum_nil]
    omega
  | x :: y :: t, e => by
    have h1 := h x e
    have h2 := writeElems_length h (y :: t) (wr x e).2.2
    simp only [writeElems, List.map_cons, List.sum_cons, List.length_append, List.length_cons] at h2 ⊢
    omega

mutual
theorem Ty.write_length (p : Params) : (t : Ty) → (v : t.Den) → (e : ErrInfo) →
    (t.write p v e).2.1.length ≤ t.room p.ensureAscii v
  | .num q, v, e => by
    simp only [Ty.write, Ty.room]
    split
    · exact Nat.le_refl 4
    · exact q.text_length _
  | .raw q, v, e => q.text_length v
  | .str, v, e => by
    simp only [Ty.write, Ty.room]
    split
    · exact Nat.le_refl 4
    · exact stringWrite_length _ _ _
  | .bytes, v, e => by
    have := b64Enc_length v
    simp only [Ty.write, Ty.room, List.length_append, List.length_cons, List.length_nil]
    omega
  | .rep t, v, e => by
    have := writeElems_length (room := t.room p.ensureAscii) (Ty.write_length p t) v e
    simp only [Ty.write, Ty.room, List.length_append, List.length_cons, List.length_nil]
    omega
  | .msg _ fs, v, e => by
    have := Fields.write_length p fs v true e
    rw [if_pos rfl] at this
    simp only [Ty.write, Ty.room, List.length_append, List.length_cons, List.length_nil]
    omega
theorem Fields.write_length (p : Params) : (fs : Fields) → (v : fs.Den) → (first : Bool) → (e : ErrInfo) →
    (fs.write p v first e).1.length + 1 ≤ max 1 (fs.room p.ensureAscii v + if first then 0 else 1)
  | .nil, v, first, e => by simp only [Fields.write, List.length_nil]; omega
  | .cons f t rest, v, first, e => by
    simp only [Fields.write, Fields.room]
    split
    · have := Fields.write_length p rest v.2 first e
      omega
    · split
      · have h1 := Ty.write_length p t v.1 e
        have h2 := Fields.write_length p rest v.2 false (t.write p v.1 e).2.2
        simp only [Bool.false_eq_true, if_false] at h2
        simp only [List.length_append]
        cases first
        · simp only [Bool.false_eq_true, if_false]
          have l1 : (b!",\"").length = 2 := rfl
          have l2 : (b!"\":").length = 2 := rfl
          omega
        · simp only [if_true]
          have l1 : (b!"\"").length = 1 := rfl
          have l2 : (b!"\":").length = 2 := rfl
          omega
      · have := Fields.write_length p rest v.2 first e
        omega
end

/-- C81.  The text of an object, whole or cut off by an error, is no longer than its room. -/
theorem C81_room (t : Ty) (p : Option Params) (v : t.Den) :
    (serialize t p v).out.length ≤ t.room (ctxParams p).ensureAscii v :=
  Ty.write_length _ t v _

mutual
theorem Ty.room_most (ascii : Bool) : (t : Ty) → (v : t.Den) → (k : Nat) → t.most = some k → t.room ascii v ≤ k
  | .num p, v, k, h => by
    simp only [Ty.most, Option.some.injEq] at h
    simp only [Ty.room]
    split <;> omega
  | .raw p, v, k, h => by
    simp only [Ty.most, Option.some.injEq] at h
    simp only [Ty.room]; omega
  | .str, _, _, h => by cases h
  | .bytes, _, _, h => by cases h
  | .rep _, _, _, h => by cases h
  | .msg _ fs, v, k, h => by
    simp only [Ty.most] at h
    cases hm : fs.most with
    | none => rw [hm] at h; cases h
    | some j =>
      rw [hm] at h
      simp only [Option.map_some, Option.some.injEq] at h
      have := Fields.room_most ascii fs v j hm
      simp only [Ty.room]; omega
theorem Fields.room_most (ascii : Bool) : (fs : Fields) → (v : fs.Den) → (k : Nat) → fs.most = some k → fs.room ascii v ≤ k
  | .nil, _, k, h => by simp [Fields.room]
  | .cons f t rest, v, k, h => by
    simp only [Fields.most] at h
    simp only [Fields.room]
    split at h
    · rename_i ht
      rw [if_pos ht]
      have := Fields.room_most ascii rest v.2 k h
      omega
    · rename_i ht
      rw [if_neg ht]
      cases ha : t.most with
      | none => rw [ha] at h; cases h
      | some a =>
        rw [ha] at h
        cases hb : rest.most with
        | none => rw [hb] at h; cases h
        | some b =>
          rw [hb] at h
          simp only [Option.bind_some, Option.map_some, Option.some.injEq] at h
          have h1 := Ty.room_most ascii t v.1 a ha
          have h2 := Fields.room_most ascii rest v.2 b hb
          omega
end

/-- C81 for messages of numbers, booleans and such messages: a size that suffices for every object of the type. -/
theorem C81_most {t : Ty} {k : Nat} (h : t.most = some k) (p : Option Params) (v : t.Den) :
    (serialize t p v).out.length ≤ k :=
  Nat.le_trans (C81_room t p v) (Ty.room_most _ t v k h)

/-- C81 for buffers: with one byte more than the room nothing is cut off (the first byte stays unused, C25). -/
theorem C81_buffer (t : Ty) (p : Option Params) (v : t.Den) (buf : Bytes) (h : t.room (ctxParams p).ensureAscii v < buf.length) :
    ∃ buf', serializeBuf t p v buf = some ((serialize t p v).ret, (serialize t p v).params, buf') ∧
      (buf'.drop 1).take (serialize t p v).out.length = (serialize t p v).out := by
  obtain ⟨buf', h1, h2, h3⟩ := C25_bounded_buffer_partial t p v buf
  refine ⟨buf', h1, ?_⟩
  have hl := C81_room t p v
  apply List.ext_getElem?
  intro i
  rw [List.getElem?_take, List.getElem?_drop]
  split
  · rename_i hi
    rw [h3, if_pos ⟨by omega, by omega, by omega⟩]
    congr 1; omega
  · rename_i hi
    rw [List.getElem?_eq_none (by omega)]

/-- The room is used up by an array of smallest and largest numbers and a string to escape. -/
example : (Ty.rep (.raw (.int .i32))).room false [CInt.cast .i32 (-2147483648), CInt.cast .i32 (-2147483648)] = 25 ∧
    (serialize (.rep (.raw (.int .i32))) none [CInt.cast .i32 (-2147483648), CInt.cast .i32 (-2147483648)]).out.length = 25 ∧
    Ty.str.room false ⟨b!"\"\\", false⟩ = 6 ∧ (serialize .str none ⟨b!"\"\\", false⟩).out.length = 6 ∧
    Ty.str.room true ⟨[0xC3, 0xA9], false⟩ = 8 ∧
    (serialize .str (some { ensureAscii := true }) ⟨[0xC3, 0xA9], false⟩).out.length = 8 := by decide +kernel

/-- `message P { int32 x = 1; double y = 2; }` -/
example : (Ty.msg false (.cons ⟨b!"x", b!"x", b!"x", false⟩ (.num (.int .i32))
    (.cons ⟨b!"y", b!"y", b!"y", false⟩ (.num (.flt .f64)) .nil))).most = some 339 := by decide +kernel

/-! ### C80 -/

theorem putCodeUnit_length {value value' : Bytes} {lead lead' cp : Nat} (h : putCodeUnit value lead cp = some (value', lead')) :
    value'.length ≤ value.length + 4 := by
  unfold putCodeUnit at h
  repeat' split at h
  all_goals first
    | (cases h; done)
    | (simp only [Option.some.injEq, Prod.mk.injEq] at h; rw [← h.1]; simp)

theorem eof_of_peek {s : IStream} (h : s.peek ≠ 0) : s.eof = false := by
  unfold IStream.peek at h
  unfold IStream.eof
  cases hr : s.rest with
  | nil => rw [hr] at h; exact absurd rfl h
  | cons _ _ => rfl

theorem lexHex_length : ∀ (n v : Nat) (s : IStream) (cp : Nat), s.eof = false → (lexHex n v s).1 = some cp →
    (lexHex n v s).2.rest.length + n ≤ s.rest.length
  | 0, v, s, cp, _, _ => by simp [lexHex]
  | n + 1, v, s, cp, he, h => by
    unfold lexHex at h ⊢
    simp only at h ⊢
    have h1 := s.next_length_lt he
    split at h
    · rename_i d hd
      have hp : s.next.peek ≠ 0 := by intro e; rw [e] at hd; cases hd
      have := lexHex_length n _ s.next cp (eof_of_peek hp) h
      omega
    · cases h

/-- A string is shorter than its text, by two bytes at least. -/
theorem lexString_holds (s : IStream) (lead : Nat) (value v : Bytes) (h : (lexString s lead value).1 = some v) :
    v.length + (lexString s lead value).2.rest.length + 2 ≤ value.length + s.rest.length := by
  induction hk : s.rest.length using Nat.strongRecOn generalizing s lead value with
  | ind k ih =>
    subst hk
    unfold lexString at h ⊢
    split at h
    case isFalse => cases h
    case isTrue he =>
      rw [dif_pos he]
      have h1 := s.next_length_lt he
      simp only at h ⊢
      by_cases c1 : s.next.peek = c!"\""
      · rw [if_pos c1] at h ⊢
        have h2 := s.next.next_length_lt (eof_of_peek (by rw [c1]; decide))
        simp only [Option.some.injEq] at h
        subst h
        simp only
        omega
      · rw [if_neg c1] at h ⊢
        by_cases c2 : s.next.peek = c!"\\"
        · rw [if_pos c2] at h ⊢
          have h2 := s.next.next_length_lt (eof_of_peek (by rw [c2]; decide))
          by_cases c3 : s.next.next.peek = c!"u"
          · rw [if_pos c3] at h ⊢
            have he2 := eof_of_peek (s := s.next.next) (by rw [c3]; decide)
            cases hx : lexHex 4 0 s.next.next with
            | mk o s4 =>
              rw [hx] at h
              cases o with
              | none => cases h
              | some cp =>
                have h3 := lexHex_length 4 0 s.next.next cp he2 (by rw [hx])
                rw [hx] at h3
                simp only at h h3 ⊢
                cases hp : putCodeUnit value lead cp with
                | none => rw [hp] at h; cases h
                | some r =>
                  obtain ⟨value', lead'⟩ := r
                  have h4 := putCodeUnit_length hp
                  rw [hp] at h
                  simp only at h ⊢
                  have := ih s4.rest.length (by omega) s4 lead' value' h rfl
                  omega
          · rw [if_neg c3] at h ⊢
            cases hs : simpleEscape s.next.next.peek with
            | none => rw [hs] at h; cases h
            | some e =>
              rw [hs] at h
              simp only at h ⊢
              have := ih s.next.next.rest.length (by omega) s.next.next lead (value ++ [e]) h rfl
              simp only [List.length_append, List.length_cons, List.length_nil] at this
              omega
        · rw [if_neg c2] at h ⊢
          by_cases c3 : s.next.peek = 0
          · rw [if_pos c3] at h; cases h
          · rw [if_neg c3] at h ⊢
            have := ih s.next.rest.length h1 s.next lead (value ++ [s.next.peek]) h rfl
            simp only [List.length_append, List.length_cons, List.length_nil] at this
            omega

/-- What the current token can still contribute. -/
def Token.credit (t : Token) : Nat :=
  match t.id with
  | .none => 0
  | .eos => 0
  | .string => t.value.length + 2
  | _ => 1

/-- What a token contributes was taken from the text. -/
theorem lex_credit (s : IStream) : (lex s).1.credit + (lex s).2.rest.length ≤ s.rest.length := by
  have hl := lex_len s
  by_cases hs : (lex s).1.id = .string
  · have hc : (lex s).1.credit = (lex s).1.value.length + 2 := by unfold Token.credit; rw [hs]
    rw [hc]
    clear hl hc
    induction h : s.rest.length using Nat.strongRecOn generalizing s with
    | ind k ih =>
      subst h
      unfold lex at hs ⊢
      split at hs
      case isFalse => cases hs
      case isTrue he =>
        rw [dif_pos he]
        have h1 := s.next_length_lt he
        simp only at hs ⊢
        split at hs
        · rename_i c; rw [if_pos c]
          have := ih s.next.rest.length h1 s.next hs rfl
          omega
        · rename_i c; rw [if_neg c]
          by_cases c34 : s.peek = 34
          · have e : (if s.peek = 123 then ({ id := .objs, line := s.line, col := s.col }, s.next)
                else if s.peek = 125 then ({ id := .obje, line := s.line, col := s.col }, s.next)
                else if s.peek = 91 then ({ id := .arrs, line := s.line, col := s.col }, s.next)
                else if s.peek = 93 then ({ id := .arre, line := s.line, col := s.col }, s.next)
                else if s.peek = 58 then ({ id := .colon, line := s.line, col := s.col }, s.next)
                else if s.peek = 44 then ({ id := .comma, line := s.line, col := s.col }, s.next)
                else if s.peek = 34 then parseString s
                else if (decide (s.peek = 45) || isDigit s.peek) = true then
                  ({ id := .number, value := (lexNumber s []).1, line := s.line, col := s.col }, (lexNumber s []).2)
                else (identToken (lexIdent s []).1 s.line s.col, (lexIdent s []).2)) = parseString s := by
              rw [c34]; rfl
            rw [e] at hs ⊢
            unfold parseString at hs ⊢
            cases hx : lexString s 0 [] with
            | mk o s' =>
              cases o with
              | none => rw [hx] at hs; cases hs
              | some v =>
                have := lexString_holds s 0 [] v (by rw [hx])
                rw [hx] at this
                simp only [List.length_nil] at this ⊢
                omega
          · exfalso
            rw [if_neg c34] at hs
            unfold identToken at hs
            repeat' split at hs
            all_goals cases hs
  · have hc : (lex s).1.credit ≤ 1 ∧ ((lex s).1.id = .none ∨ (lex s).1.id = .eos → (lex s).1.credit = 0) := by
      unfold Token.credit
      split
      · exact ⟨by omega, fun _ => rfl⟩
      · exact ⟨by omega, fun _ => rfl⟩
      · rename_i h; exact absurd h hs
      · rename_i h1 h2 _; exact ⟨Nat.le_refl _, fun h => (h.elim h1 h2).elim⟩
    by_cases hn : (lex s).1.id = .none ∨ (lex s).1.id = .eos
    · have := hc.2 hn; have := hl.1; omega
    · have := hl.2 (fun h => hn (.inl h)) (fun h => hn (.inr h)); have := hc.1; omega

/-- Unread bytes and what the current token can still contribute. -/
def Tz.pool (tz : Tz) : Nat := tz.inp.rest.length + tz.cur.credit

theorem Tz.next_pool (tz : Tz) : tz.next.pool + tz.cur.credit ≤ tz.pool := by
  have := lex_credit tz.inp
  unfold Tz.pool Tz.next
  simp only
  omega

theorem Tz.error_pool (tz : Tz) (c : ECode) : (tz.error c).2.pool = tz.pool := by
  unfold Tz.error; split <;> rfl

theorem inv_pool (k : Nat) : TzInv (fun tz => tz.pool ≤ k) where
  next := fun {a} h _ _ => by have := a.next_pool; omega
  error := fun h c => by rw [Tz.error_pool]; exact h

theorem credit_pos {t : Token} (h1 : t.id ≠ .none) (h2 : t.id ≠ .eos) : 1 ≤ t.credit := by
  unfold Token.credit
  split <;> first | contradiction | omega

/-- The two outcomes of `expect`. -/
theorem Tz.expect_pool (tz : Tz) (t : TId) (h1 : t ≠ .none) (h2 : t ≠ .eos) :
    (∃ tz', tz.expect t = (true, tz') ∧ tz'.pool + 1 ≤ tz.pool) ∨ tz.expect t = (false, tz) := by
  by_cases h : tz.cur.id = t
  · left
    have h3 := tz.next_pool
    have h4 := credit_pos (t := tz.cur) (by rw [h]; exact h1) (by rw [h]; exact h2)
    exact ⟨_, expect_pos h, by omega⟩
  · right; exact expect_neg h

/-- The reader gave the object no more than it took from the text. -/
def Pays {α : Type} (holds : α → Nat) (k : Nat) (tz : Tz) (v : α) (r : Res α) : Prop :=
  holds r.2.2 + r.2.1.pool ≤ holds v + tz.pool + k

theorem ignoreValue_pool (n : Nat) (tz : Tz) : (ignoreValue n tz).2.pool ≤ tz.pool :=
  (ignoreValue_sim (inv_pool tz.pool).sim n ⟨rfl, Nat.le_refl _⟩).2.2

theorem b64Dec_le (v : Bytes) : (b64Dec v).1.length ≤ v.length := by
  induction h : v.length using Nat.strongRecOn generalizing v with
  | ind k ih =>
    subst h
    unfold b64Dec
    split
    · rename_i a b c d t
      split
      · simp
      · split
        · simp
        · have := ih t.length (by simp only [List.length_cons]; omega) t rfl
          have hg : (b64Group (b64Int a) (b64Int b) (b64Int c) (b64Int d)).length ≤ 3 := by
            unfold b64Group
            repeat' split
            all_goals simp
          simp only [List.length_append, List.length_cons]
          omega
    · simp
    · simp

theorem stringRead_pays (tz : Tz) (v : Bytes) :
    (stringRead tz v).2.2.length + (stringRead tz v).2.1.pool ≤ v.length + tz.pool := by
  unfold stringRead
  split
  · simp
  · by_cases h : tz.cur.id = .string
    · rw [expect_pos h]
      simp only
      have h1 := tz.next_pool
      have h2 : tz.cur.credit = tz.cur.value.length + 2 := by unfold Token.credit; rw [h]
      omega
    · rw [expect_neg h]
      simp only [Tz.error_pool]
      omega

theorem bytesRead_pays (tz : Tz) (v : List Byte) :
    (bytesRead tz v).2.2.length + (bytesRead tz v).2.1.pool ≤ v.length + tz.pool := by
  unfold bytesRead
  split
  · simp
  · split
    · simp only [Tz.error_pool]; omega
    · rename_i _ h
      have h : tz.cur.id = .string := Classical.byContradiction h
      have h1 := tz.next_pool
      have h2 : tz.cur.credit = tz.cur.value.length + 2 := by unfold Token.credit; rw [h]
      have h3 := b64Dec_le tz.cur.value
      simp only [List.length_append]
      split
      · rw [Tz.error_pool]; omega
      · omega

theorem Prim.read_pays (p : Prim) (tz : Tz) (v : p.Den) : (p.read tz v).2.1.pool ≤ tz.pool := by
  have := tz.next_pool
  cases p <;> unfold Prim.read <;> simp only <;> (repeat' split) <;> simp only [Tz.error_pool] <;> omega

theorem readArrLoop_pays {α : Type} {rd : Tz → Res α} {holds : α → Nat}
    (hrd : ∀ tz, holds (rd tz).2.2 + (rd tz).2.1.pool ≤ tz.pool) : (n : Nat) → (tz : Tz) → (v : List α) →
    Pays (fun v : List α => (v.map fun x => 1 + holds x).sum) 1 tz v (readArrLoop rd n tz v)
  | 0, tz, v => by unfold Pays readArrLoop; simp only; omega
  | n + 1, tz, v => by
    unfold readArrLoop
    have hr := hrd tz
    cases hx : rd tz with
    | mk c xw =>
      obtain ⟨x, w⟩ := xw
      rw [hx] at hr
      simp only at hr
      have tail : ∀ v' : List α, (v'.map fun x => 1 + holds x).sum + x.pool ≤ (v.map fun x => 1 + holds x).sum + tz.pool + 1 →
          Pays (fun v : List α => (v.map fun x => 1 + holds x).sum) 1 tz v
          (match x.expect .comma with
            | (true, tz) => readArrLoop rd n tz v'
            | (false, tz) =>
              match tz.expect .arre with
              | (true, tz) => (.ok, tz, v')
              | (false, tz) => let e := tz.error .invalidArray; (e.1, e.2, v')) := by
        intro v' hv
        rcases x.expect_pool .comma (by decide) (by decide) with ⟨y, h1, h2⟩ | h1
        · rw [h1]
          have := readArrLoop_pays hrd n y v'
          unfold Pays at this ⊢
          simp only at this ⊢
          omega
        · rw [h1]
          simp only
          rcases x.expect_pool .arre (by decide) (by decide) with ⟨y, h1, h2⟩ | h1
          · rw [h1]; unfold Pays; simp only; omega
          · rw [h1]; unfold Pays; simp only [Tz.error_pool]; omega
      cases c with
      | ok =>
        refine tail _ ?_
        simp only [if_true, List.map_append, List.map_cons, List.map_nil, List.sum_append, List.sum_cons, List.sum_nil]
        omega
      | nil => exact tail _ (by simp only [reduceCtorEq, if_false]; omega)
      | error => unfold Pays; simp only; omega
      | fuel => unfold Pays; simp only; omega

theorem readArr_pays {α : Type} {rd : Tz → Res α} {holds : α → Nat}
    (hrd : ∀ tz, holds (rd tz).2.2 + (rd tz).2.1.pool ≤ tz.pool) (n : Nat) (tz : Tz) (v : List α) :
    Pays (fun v : List α => (v.map fun x => 1 + holds x).sum) 0 tz v (readArr rd n tz v) := by
  unfold readArr
  split
  · exact Nat.le_refl _
  · rcases tz.expect_pool .arrs (by decide) (by decide) with ⟨y, h1, h2⟩ | h1
    · rw [h1]
      simp only
      rcases y.expect_pool .arre (by decide) (by decide) with ⟨z, h3, h4⟩ | h3
      · rw [h3]; unfold Pays; simp only; omega
      · rw [h3]
        have := readArrLoop_pays hrd n y v
        unfold Pays at this ⊢
        simp only at this ⊢
        omega
    · rw [h1]; unfold Pays; simp only [Tz.error_pool]; omega

theorem objStep_pool (tz : Tz) : (objStep tz).2.pool ≤ tz.pool := by
  unfold objStep
  rcases tz.expect_pool .comma (by decide) (by decide) with ⟨y, h1, h2⟩ | h1
  · rw [h1]; simp only; omega
  · rw [h1]
    simp only
    rcases tz.expect_pool .obje (by decide) (by decide) with ⟨y, h1, h2⟩ | h1
    · rw [h1]; simp only; omega
    · rw [h1]; simp only [Tz.error_pool]; omega

theorem readObjLoop_pays {α : Type} {rf : Bytes → Tz → α → Res α} {holds : α → Nat}
    (hrf : ∀ name tz v, Pays holds 0 tz v (rf name tz v)) : (n : Nat) → (tz : Tz) → (v : α) →
    Pays holds 0 tz v (readObjLoop rf n tz v)
  | 0, tz, v => Nat.le_refl _
  | n + 1, tz, v => by
    unfold readObjLoop
    simp only
    rcases tz.expect_pool .string (by decide) (by decide) with ⟨y, h1, h2⟩ | h1
    · rw [h1]
      simp only
      rcases y.expect_pool .colon (by decide) (by decide) with ⟨z, h3, h4⟩ | h3
      · rw [h3]
        simp only
        have hr := hrf tz.cur.value z v
        cases hx : rf tz.cur.value z v with
        | mk c xw =>
          obtain ⟨x, w⟩ := xw
          rw [hx] at hr
          unfold Pays at hr
          simp only at hr
          have tail : ∀ x' : Tz, x'.pool ≤ x.pool → Pays holds 0 tz v
              (match objStep x' with
              | (none, tz) => readObjLoop rf n tz w
              | (some r, tz) => (r, tz, w)) := by
            intro x' hx'
            have ho := objStep_pool x'
            cases hs : objStep x' with
            | mk o u =>
              rw [hs] at ho
              simp only at ho
              cases o with
              | none =>
                have := readObjLoop_pays hrf n u w
                unfold Pays at this ⊢
                simp only at this ⊢
                omega
              | some r => unfold Pays; simp only; omega
          cases c with
          | ok => exact tail x (Nat.le_refl _)
          | error => unfold Pays; simp only; omega
          | fuel => unfold Pays; simp only; omega
          | nil =>
            simp only
            have hi := ignoreValue_pool n x
            cases hv : ignoreValue n x with
            | mk c x' =>
              rw [hv] at hi
              simp only at hi
              cases c with
              | ok => exact tail x' hi
              | nil => exact tail x' hi
              | error => unfold Pays; simp only; omega
              | fuel => unfold Pays; simp only; omega
      · rw [h3]; unfold Pays; simp only [Tz.error_pool]; omega
    · rw [h1]; unfold Pays; simp only [Tz.error_pool]; omega

theorem readObj_pays {α : Type} {rf : Bytes → Tz → α → Res α} {holds : α → Nat}
    (hrf : ∀ name tz v, Pays holds 0 tz v (rf name tz v)) (n : Nat) (tz : Tz) (v : α) :
    Pays holds 0 tz v (readObj rf n tz v) := by
  unfold readObj
  split
  · exact Nat.le_refl _
  · rcases tz.expect_pool .objs (by decide) (by decide) with ⟨y, h1, h2⟩ | h1
    · rw [h1]
      simp only
      rcases y.expect_pool .obje (by decide) (by decide) with ⟨z, h3, h4⟩ | h3
      · rw [h3]; unfold Pays; simp only; omega
      · rw [h3]
        have := readObjLoop_pays hrf n y v
        unfold Pays at this ⊢
        simp only at this ⊢
        omega
    · rw [h1]; unfold Pays; simp only [Tz.error_pool]; omega

mutual
theorem Ty.holds_new : (t : Ty) → t.holds t.new = 0
  | .num _ => rfl
  | .raw _ => rfl
  | .str => rfl
  | .bytes => rfl
  | .rep _ => rfl
  | .msg _ fs => Fields.holds_new fs
theorem Fields.holds_new : (fs : Fields) → fs.holds fs.new = 0
  | .nil => rfl
  | .cons _ t rest => by
    have h1 := Ty.holds_new t
    have h2 := Fields.holds_new rest
    simp only [Fields.holds, Fields.new]; omega
end

mutual
theorem Ty.read_pays : (t : Ty) → (n : Nat) → (tz : Tz) → (v : t.Den) → Pays t.holds 0 tz v (t.read n tz v)
  | .num p, n, tz, v => by
    have := p.read_pays tz p.zero
    unfold Pays
    simp only [Ty.read, NumField.read, Ty.holds]; omega
  | .raw p, n, tz, v => by
    have := p.read_pays tz v
    unfold Pays
    simp only [Ty.read, Ty.holds]; omega
  | .str, n, tz, v => by
    have := stringRead_pays tz []
    unfold Pays
    simp only [Ty.read, StrField.read, Ty.holds, StrField.assignT, List.length_nil] at this ⊢; omega
  | .bytes, n, tz, v => bytesRead_pays tz v
  | .rep t, n, tz, v => by
    have hrd : ∀ tz, t.holds (t.read n tz t.new).2.2 + (t.read n tz t.new).2.1.pool ≤ tz.pool := by
      intro tz
      have := Ty.read_pays t n tz t.new
      have h0 := Ty.holds_new t
      unfold Pays at this
      omega
    exact readArr_pays hrd n tz v
  | .msg obf fs, n, tz, v => by
    refine readObj_pays (holds := fs.holds) ?_ n tz v
    intro name tz v
    cases indexOf obf fs name with
    | none => exact Nat.le_refl _
    | some i => exact Fields.readAt_pays fs i n tz v
theorem Fields.readAt_pays : (fs : Fields) → (i n : Nat) → (tz : Tz) → (v : fs.Den) → Pays fs.holds 0 tz v (fs.readAt i n tz v)
  | .nil, i, n, tz, v => Nat.le_refl _
  | .cons f t rest, i, n, tz, v => by
    unfold Pays
    simp only [Fields.readAt, Fields.holds]
    split
    · have := Fields.readAt_pays rest i n tz v.2
      unfold Pays at this
      simp only
      omega
    · split
      · have := Ty.read_pays t n tz v.1
        unfold Pays at this
        simp only
        omega
      · rename_i i
        have := Fields.readAt_pays rest i n tz v.2
        unfold Pays at this
        simp only
        omega
end

/-- C80.  Reading, successful or not, adds to an object no more than the text has bytes. -/
theorem C80_no_amplification (t : Ty) (input : Bytes) (p : Option Params) (v : t.Den) (r : DRes t.Den)
    (h : deserialize t input p v = some r) : t.holds r.obj ≤ t.holds v + input.length := by
  have hp := Ty.read_pays t (fuelFor input) (Tz.open' (IStream.open' input) (ctxParams p).err) v
  have hl : (Tz.open' (IStream.open' input) (ctxParams p).err).pool ≤ input.length := by
    have h1 := lex_credit (IStream.open' input)
    have h2 := IStream.skip_length_le input 1 1
    unfold Tz.open' Tz.next Tz.pool
    simp only
    unfold IStream.open' at h1 ⊢
    omega
  unfold Pays at hp
  unfold deserialize deserializeFrom at h
  simp only at h
  have key : r.obj = (t.read (fuelFor input) (Tz.open' (IStream.open' input) (ctxParams p).err) v).2.2 := by
    split at h
    · cases h
    · simp only [Option.some.injEq] at h
      rw [← h]
  rw [key]
  omega

/-- C80 for a new object. -/
theorem C80_new (t : Ty) (input : Bytes) (p : Option Params) (r : DRes t.Den) (h : deserialize t input p t.new = some r) :
    t.holds r.obj ≤ input.length := by
  have h1 := C80_no_amplification t input p t.new r h
  have h2 := Ty.holds_new t
  omega

/-- Two elements and four bytes, from a text of fifteen bytes. -/
example : (deserialize (.rep .str) b!"[\"ab\",\"\\u00e9\"]" none []).map (fun r => (Ty.rep .str).holds r.obj) = some 6 ∧
    (b!"[\"ab\",\"\\u00e9\"]").length = 15 := by decide +kernel

end PG
