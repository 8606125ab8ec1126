import Verif.Props.Demo
/-
C04: with `ensure_ascii` the output is ASCII, whatever the strings contain.
-/
set_option autoImplicit false
namespace PG

/-- Every byte is below 0x80. -/
def Ascii (bs : Bytes) : Prop := ∀ b ∈ bs, b < 0x80

theorem Ascii.append {a b : Bytes} (ha : Ascii a) (hb : Ascii b) : Ascii (a ++ b) := by
  intro x hx
  rcases List.mem_append.mp hx with h | h
  · exact ha x h
  · exact hb x h

theorem Ascii.cons {b : Byte} {t : Bytes} (hb : b < 0x80) (ht : Ascii t) : Ascii (b :: t) := by
  intro x hx
  rcases List.mem_cons.mp hx with rfl | h
  · exact hb
  · exact ht x h

theorem Ascii.nil : Ascii [] := by intro b h; simp at h

theorem Ascii.take {t : Bytes} (n : Nat) (ht : Ascii t) : Ascii (t.take n) := fun b hb => ht b (List.mem_of_mem_take hb)

theorem byte_ascii {n : Nat} (h : n < 128) : byte n < 0x80 := by
  rw [UInt8.lt_iff_toNat_lt, byte_toNat (by omega)]; exact h

theorem digit_ascii {b : Byte} (h : isDigit b = true) : b < 0x80 := by
  have := digit_toNat h
  rw [UInt8.lt_iff_toNat_lt]
  have : (128 : UInt8).toNat = 128 := rfl
  omega

theorem hexNat_ascii (n : Nat) : Ascii (hexNat n) := by
  induction n using Nat.strongRecOn with
  | ind n ih =>
    rw [hexNat]
    split
    · rename_i h; exact Ascii.cons (hexLow_ascii h) Ascii.nil
    · rename_i h
      exact (ih (n / 16) (by omega)).append (Ascii.cons (hexLow_ascii (by omega)) Ascii.nil)

theorem escU_ascii (cp : Nat) : Ascii (escU cp) := by
  unfold escU hex04
  apply Ascii.take
  refine Ascii.append (by unfold Ascii; decide) (Ascii.append ?_ (hexNat_ascii cp))
  intro b hb
  rw [List.eq_of_mem_replicate hb]; decide

theorem escByte_ascii {b : Byte} (h : b ≤ 0x7F) : Ascii (escByte b) := by
  have hb : b < 0x80 := by
    rw [UInt8.le_iff_toNat_le] at h
    rw [UInt8.lt_iff_toNat_lt]
    have e1 : (127 : UInt8).toNat = 127 := rfl
    have e2 : (128 : UInt8).toNat = 128 := rfl
    omega
  unfold escByte
  repeat' split
  all_goals first | exact Ascii.cons hb Ascii.nil | (unfold Ascii; decide)

theorem strBody_only_ascii : (s : Bytes) → Ascii (strBody true s).1
  | [] => by rw [strBody]; exact Ascii.nil
  | b1 :: t => by
    have ih := fun (r : Bytes) (h : r.length < (b1 :: t).length) => strBody_only_ascii r
    rw [strBody.eq_def]
    simp only [Bool.not_true, Bool.false_eq_true, if_false]
    split
    · rename_i h; exact (escByte_ascii h).append (ih t (by simp))
    · match t with
      | [] => exact Ascii.nil
      | b2 :: t2 =>
        simp only
        split
        · exact (escU_ascii _).append (ih t2 (by simp; omega))
        · match t2 with
          | [] => exact Ascii.nil
          | b3 :: t3 =>
            simp only
            split
            · exact (escU_ascii _).append (ih t3 (by simp; omega))
            · match t3 with
              | [] => exact Ascii.nil
              | b4 :: t4 =>
                simp only
                split
                · exact ((escU_ascii _).append (escU_ascii _)).append (ih t4 (by simp; omega))
                · exact Ascii.nil
  termination_by s => s.length
  decreasing_by exact h

theorem decNat_ascii (n : Nat) : Ascii (decNat n) := fun b hb => digit_ascii (decNat_digits n b hb)

theorem decInt_ascii (i : Int) : Ascii (decInt i) := by
  unfold decInt
  split
  · exact Ascii.cons (by decide) (decNat_ascii _)
  · exact decNat_ascii _

theorem fixed6_ascii (q : Nat) : Ascii (fixed6 q) := by
  unfold fixed6
  exact (decNat_ascii _).append (Ascii.cons (by decide) (fun b hb => digit_ascii (dec6_digits _ b hb)))

theorem printfF_ascii (x : Flt) : Ascii (printfF x) := by
  cases x with
  | nan => unfold Ascii; decide
  | inf neg => cases neg <;> (unfold Ascii; decide)
  | fin neg m =>
    unfold printfF
    cases neg
    · exact fixed6_ascii _
    · exact Ascii.cons (by decide) (fixed6_ascii _)

theorem Prim.text_ascii (p : Prim) (v : p.Den) : Ascii (p.text v) := by
  cases p with
  | int k => exact decInt_ascii _
  | flt k => exact (printfF_ascii _).take 318
  | bool => cases (show Bool from v) <;> (unfold Ascii; decide)

theorem writeElems_ascii {α : Type} {wr : α → ErrInfo → WRes} {xs : List α} (h : ∀ x ∈ xs, ∀ e, Ascii (wr x e).2.1)
    (e : ErrInfo) : Ascii (writeElems wr xs e).1 := by
  induction xs generalizing e with
  | nil => exact Ascii.nil
  | cons x t ih =>
    cases t with
    | nil => exact h x (by simp) e
    | cons y t =>
      refine (h x (by simp) e).append (Ascii.cons (by decide) ?_)
      exact ih (fun z hz => h z (List.mem_cons_of_mem _ hz)) _

mutual
/-- Every label in the type is ASCII. -/
def Ty.AsciiLabels : Ty → Prop
  | .rep t => t.AsciiLabels
  | .msg _ fs => fs.AsciiLabels
  | _ => True
/-- Every label of the fields. -/
def Fields.AsciiLabels : Fields → Prop
  | .nil => True
  | .cons f t rest => Ascii f.wlabel ∧ t.AsciiLabels ∧ rest.AsciiLabels
end

mutual
theorem Ty.write_ascii (p : Params) (hp : p.ensureAscii = true) : (t : Ty) → t.AsciiLabels → (v : t.Den) → (e : ErrInfo) →
    Ascii (t.write p v e).2.1
  | .num q, _, v, e => by
    simp only [Ty.write]
    split
    · show Ascii b!"null"; unfold Ascii; decide
    · exact Prim.text_ascii q _
  | .raw q, _, v, e => Prim.text_ascii q v
  | .str, _, v, e => by
    simp only [Ty.write]
    split
    · show Ascii b!"null"; unfold Ascii; decide
    · unfold stringWrite
      rw [hp]
      simp only
      split
      · exact Ascii.cons (by decide) ((strBody_only_ascii _).append (by unfold Ascii; decide))
      · exact Ascii.cons (by decide) (strBody_only_ascii _)
  | .bytes, _, v, e => by
    simp only [Ty.write]
    refine Ascii.cons (by decide) (Ascii.append ?_ (by unfold Ascii; decide))
    rw [b64Enc_eq]
    exact fun b hb => (base64_raw v b hb).2
  | .rep t, hl, v, e => by
    simp only [Ty.write]
    exact Ascii.cons (by decide) ((writeElems_ascii (fun x _ e => Ty.write_ascii p hp t hl x e) e).append
      (by unfold Ascii; decide))
  | .msg _ fs, hl, v, e => by
    simp only [Ty.write]
    exact Ascii.cons (by decide) ((Fields.write_ascii p hp fs hl v true e).append (by unfold Ascii; decide))
theorem Fields.write_ascii (p : Params) (hp : p.ensureAscii = true) : (fs : Fields) → fs.AsciiLabels → (v : fs.Den) →
    (first : Bool) → (e : ErrInfo) → Ascii (fs.write p v first e).1
  | .nil, _, _, _, _ => Ascii.nil
  | .cons f t rest, hl, v, first, e => by
    unfold Fields.AsciiLabels at hl
    unfold Fields.write
    split
    · exact Fields.write_ascii p hp rest hl.2.2 v.2 first e
    · split
      · simp only
        refine Ascii.append (Ascii.append (Ascii.append (Ascii.append ?_ hl.1) (by unfold Ascii; decide)) ?_) ?_
        · cases first <;> (unfold Ascii; decide)
        · exact Ty.write_ascii p hp t hl.2.1 v.1 e
        · exact Fields.write_ascii p hp rest hl.2.2 v.2 false _
      · exact Fields.write_ascii p hp rest hl.2.2 v.2 first e
end

/-- C04.  With `ensure_ascii` set, every byte sent to the output is below 0x80, for every type with ASCII labels and for
every object -- strings may contain anything. -/
theorem C04_ascii_output (t : Ty) (hl : t.AsciiLabels) (p : Params) (hp : p.ensureAscii = true) (v : t.Den) :
    ∀ b ∈ (serialize t (some p) v).out, b < 0x80 :=
  Ty.write_ascii (ctxParams (some p)) hp t hl v _

/-- A message whose string is not UTF-8 (a lone continuation byte, then text). -/
example : Demo.address.AsciiLabels ∧
    (serialize Demo.address (some { ensureAscii := true }) (NumField.new, ⟨[0x41, 0x80, 0x41], false⟩, ())).out =
      b!"{\"street\":\"A}" := by
  refine ⟨⟨?_, trivial, ?_, trivial, trivial⟩, by decide +kernel⟩ <;> (unfold Ascii; decide)

/-- Without `ensure_ascii` the statement fails, so it does depend on the parameter. -/
theorem C04_needs_flag : ¬ ∀ b ∈ (serialize Demo.address (some { ensureAscii := false })
    (NumField.new, ⟨[0xC3, 0xA9], false⟩, ())).out, b < 0x80 := by decide +kernel

end PG
