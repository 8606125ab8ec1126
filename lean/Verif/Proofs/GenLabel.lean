import Verif.Spec.CLit
import Verif.Props.Generator
/-
The labels of the fields as string literals: cppgen.cc:214-224, 304-308, 416-419; protogen.hh:611-627.
-/
set_option autoImplicit false
namespace PG.Gen
open PG.Proto

/-- A character that stands for itself in a literal. -/
def Inner (c : Byte) : Prop := c ≠ c!"\"" ∧ c ≠ 10 ∧ c ≠ c!"\\"

theorem literal_inner : ∀ (s : Bytes), (∀ c ∈ s, Inner c) → literal .plain s = some s
  | [], _ => rfl
  | c :: s, h => by
    have hc := h c List.mem_cons_self
    rw [literal, plainNext, if_neg (fun e => e.elim hc.1 hc.2.1), if_neg hc.2.2,
      literal_inner s fun d hd => h d (List.mem_cons_of_mem c hd)]
    rfl

theorem takeWhile_eq_self {s : Bytes} (h : ∀ c ∈ s, c ≠ 0) : s.takeWhile (· ≠ 0) = s := by
  induction s with
  | nil => rfl
  | cons c s ih =>
    rw [List.takeWhile_cons_of_pos (by simp [h c List.mem_cons_self]), ih fun d hd => h d (List.mem_cons_of_mem c hd)]

theorem no_trigraph {s : Bytes} (h : ∀ c ∈ s, c ≠ c!"?") : mayHaveTrigraph s = false := by
  match s, h with
  | [], _ => rfl
  | [_], _ => rfl
  | a :: b :: r, h =>
    rw [mayHaveTrigraph, no_trigraph fun c hc => h c (List.mem_cons_of_mem a hc)]
    simp [h a List.mem_cons_self]

theorem hexDigit_facts (n : Nat) (h : n < 16) :
    hexValue (hexDigit n) = some n ∧ hexDigit n ≠ c!"?" ∧ hexDigit n ≠ c!"\"" ∧ hexDigit n ≠ 10 ∧ hexDigit n ≠ 0 := by
  have key : ∀ n : _root_.Fin 16, hexValue (hexDigit n.val) = some n.val ∧ hexDigit n.val ≠ c!"?" ∧
      hexDigit n.val ≠ c!"\"" ∧ hexDigit n.val ≠ 10 ∧ hexDigit n.val ≠ 0 := by decide
  exact key ⟨n, h⟩

theorem byte_toNat (b : Byte) : byte b.toNat = b := by
  simp [byte]

/-- After a hexadecimal escape, at the end or at the next escape. -/
theorem literal_hex_end {v : Nat} (h : v < 256) {r : Bytes} (hr : r = [] ∨ ∃ r', r = c!"\\" :: r') :
    literal (.hex (some v)) r = (literal .plain r).map (byte v :: ·) := by
  rcases hr with rfl | ⟨r', rfl⟩
  · simp [literal, charValue, h, byte]
  · have : hexValue c!"\\" = none := by decide
    simp only [literal, this, charValue, if_pos h, Option.bind_some, byte]

theorem literal_hexText (b : Byte) {r : Bytes} (hr : r = [] ∨ ∃ r', r = c!"\\" :: r') :
    literal .plain (b!"\\x" ++ hexText b.toNat ++ r) = (literal .plain r).map (b :: ·) := by
  have hb : b.toNat < 256 := b.toNat_lt
  have hx : ∀ s, literal .plain (b!"\\x" ++ s) = literal (.hex none) s := by
    intro s
    simp [literal, plainNext]
  rw [List.append_assoc, hx]
  unfold hexText
  split
  · rename_i hlt
    simp only [List.cons_append, List.nil_append]
    rw [literal.eq_def]
    simp only [(hexDigit_facts _ hlt).1]
    rw [literal_hex_end hb hr, byte_toNat]
  · rename_i hge
    simp only [List.cons_append, List.nil_append]
    have h1 : b.toNat / 16 < 16 := by omega
    have h2 : b.toNat % 16 < 16 := by omega
    rw [literal.eq_def]
    simp only [(hexDigit_facts _ h1).1]
    rw [literal.eq_def]
    simp only [(hexDigit_facts _ h2).1]
    rw [show 16 * (b.toNat / 16) + b.toNat % 16 = b.toNat by omega, literal_hex_end hb hr, byte_toNat]

theorem hexed_start (m : Byte) (s : Bytes) :
    let t := s.flatMap fun c => b!"\\x" ++ hexText (c ^^^ m).toNat
    t = [] ∨ ∃ r', t = c!"\\" :: r' := by
  cases s with
  | nil => exact Or.inl rfl
  | cons c s => exact Or.inr ⟨_, rfl⟩

theorem literal_hexed (m : Byte) (s : Bytes) :
    literal .plain (s.flatMap fun c => b!"\\x" ++ hexText (c ^^^ m).toNat) = some (s.map (· ^^^ m)) := by
  induction s with
  | nil => rfl
  | cons c s ih =>
    rw [List.flatMap_cons, literal_hexText _ (hexed_start m s), ih]
    rfl

theorem hexText_chars (b : Byte) : ∀ c ∈ hexText b.toNat, c ≠ c!"?" ∧ c ≠ c!"\"" ∧ c ≠ 10 ∧ c ≠ 0 := by
  have hb : b.toNat < 256 := b.toNat_lt
  unfold hexText
  intro c hc
  split at hc
  · rename_i hlt
    simp only [List.mem_cons, List.not_mem_nil, or_false] at hc
    subst hc
    exact (hexDigit_facts _ hlt).2
  · simp only [List.mem_cons, List.not_mem_nil, or_false] at hc
    rcases hc with rfl | rfl
    · exact (hexDigit_facts _ (by omega)).2
    · exact (hexDigit_facts _ (by omega)).2

theorem obfuscateText_chars (s : Bytes) : ∀ c ∈ obfuscateText s, c ≠ c!"?" ∧ c ≠ c!"\"" ∧ c ≠ 10 ∧ c ≠ 0 := by
  intro c hc
  obtain ⟨d, _, hc⟩ := List.mem_flatMap.mp hc
  rcases List.mem_append.mp hc with hc | hc
  · exact (by decide : ∀ c ∈ b!"\\x", c ≠ c!"?" ∧ c ≠ c!"\"" ∧ c ≠ 10 ∧ c ≠ 0) c hc
  · exact hexText_chars _ c hc

/-- The obfuscated text, as a literal, is the name with every character changed by the mask. -/
theorem literalValue_obfuscate (s : Bytes) : literalValue (obfuscateText s) = some (reveal s) := by
  rw [literalValue, no_trigraph fun c hc => (obfuscateText_chars s c hc).1]
  exact literal_hexed _ s

theorem cString_obfuscate (s : Bytes) : cString (obfuscateText s) = some ((reveal s).takeWhile (· ≠ 0)) := by
  rw [cString, literalValue_obfuscate]; rfl

theorem reveal_length (s : Bytes) : (reveal s).length = s.length := by simp [reveal]

theorem reveal_reveal (s : Bytes) : reveal (reveal s) = s := by
  unfold reveal
  rw [List.length_map, List.map_map]
  conv => rhs; rw [← List.map_id s]
  refine List.map_congr_left fun b _ => ?_
  simp [UInt8.xor_assoc]

theorem xor_eq_zero {a b : Byte} : a ^^^ b = 0 ↔ a = b := by
  constructor
  · intro h
    have : (a ^^^ b) ^^^ b = 0 ^^^ b := by rw [h]
    rwa [UInt8.xor_assoc, UInt8.xor_self, UInt8.xor_zero, UInt8.zero_xor] at this
  · rintro rfl; exact UInt8.xor_self

theorem reveal_no_zero {s : Bytes} (h : ∀ c ∈ s, c ≠ obfMask s.length) : ∀ c ∈ reveal s, c ≠ 0 := by
  intro c hc e
  obtain ⟨d, hd, rfl⟩ := List.mem_map.mp hc
  exact h d hd (xor_eq_zero.mp e)

end PG.Gen
