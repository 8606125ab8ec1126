import Verif.Spec.Printer
import Verif.Model.Printer
import Verif.Proofs.NumText
/-
The printer: printer.cc:39-66.
-/
set_option autoImplicit false
namespace PG.Gen

theorem digit_isDigit {b : Byte} (h : 48 ≤ b ∧ b ≤ 57) : isDigit b = true := by
  simp [isDigit, h.1, h.2]

theorem numeral_digitsVal (d : Bytes) : numeral d = digitsVal 0 d := by
  have : ∀ (d : Bytes) (v : Nat), d.foldl (fun v c => 10 * v + (c.toNat - 48)) v = digitsVal v d := by
    intro d
    induction d with
    | nil => intro v; rfl
    | cons b d ih => intro v; simp only [List.foldl_cons, digitsVal]; rw [ih]; simp only [digitsVal]; rw [Nat.mul_comm]
  exact this d 0

theorem fromDollar_append {d rest : Bytes} (h : ∀ c ∈ d, c ≠ c!"$") :
    fromDollar (d ++ c!"$" :: rest) = some (c!"$" :: rest) := by
  induction d with
  | nil => rw [List.nil_append, fromDollar, if_pos rfl]
  | cons b d ih =>
    rw [List.cons_append, fromDollar, if_neg (h b List.mem_cons_self)]
    exact ih fun c hc => h c (List.mem_cons_of_mem _ hc)

theorem fromDollar_none {d : Bytes} (h : ∀ c ∈ d, c ≠ c!"$") : fromDollar d = none := by
  induction d with
  | nil => rfl
  | cons b d ih =>
    rw [fromDollar, if_neg (h b List.mem_cons_self)]
    exact ih fun c hc => h c (List.mem_cons_of_mem _ hc)

theorem scan_hole {d rest : Bytes} (h : d ≠ [] ∧ ∀ c ∈ d, 48 ≤ c ∧ c ≤ 57) :
    strtolScan (d ++ c!"$" :: rest) = some (false, numeral d, c!"$" :: rest) := by
  obtain ⟨hne, hd⟩ := h
  have hrun := digitRun_run (ds := d) (rest := c!"$" :: rest) (fun b hb => digit_isDigit (hd b hb))
    (by intro b hb; simp only [List.head?_cons, Option.some.injEq] at hb; subst hb; decide) 0
  rw [← numeral_digitsVal] at hrun
  obtain ⟨b, t, rfl⟩ := List.exists_cons_of_ne_nil hne
  have hb := digit_isDigit (hd b List.mem_cons_self)
  rw [List.cons_append] at hrun ⊢
  unfold strtolScan
  rw [List.dropWhile_cons_of_neg (by simp [digit_not_space hb])]
  simp only [(digit_not_sign hb).1, (digit_not_sign hb).2, if_false, hb, if_true, hrun]

theorem digits_no_dollar {d : Bytes} (h : ∀ c ∈ d, 48 ≤ c ∧ c ≤ 57) : ∀ c ∈ d, c ≠ c!"$" := by
  intro c hc e
  subst e
  exact absurd (h _ hc) (by decide)

/-- The number of a hole as the code computes it, counted from zero. -/
def holeIndex (n : Nat) : Int := (CInt.cast .i32 (min (n : Int) 9223372036854775807)).val - 1

theorem print_hole (args : List Bytes) {d rest : Bytes} (h : d ≠ [] ∧ ∀ c ∈ d, 48 ≤ c ∧ c ≤ 57) :
    print args (c!"$" :: d ++ c!"$" :: rest) =
      (if holeIndex (numeral d) < 0 ∨ (args.length : Int) ≤ holeIndex (numeral d) then []
       else (args[(holeIndex (numeral d)).toNat]?).getD []) ++ print args rest := by
  rw [List.cons_append, print.eq_def]
  have hs := scan_hole (rest := rest) h
  have hf := fromDollar_append (rest := rest) (digits_no_dollar h.2)
  have he : strtolEnd (d ++ c!"$" :: rest) = c!"$" :: rest := by unfold strtolEnd; rw [hs]
  have hv : strtol (d ++ c!"$" :: rest) = min (numeral d : Int) 9223372036854775807 := by
    unfold strtol; rw [hs]; rfl
  simp only [if_true]
  split
  · rename_i h; rw [hf] at h; cases h
  · rename_i e h'
    rw [hf] at h'
    injection h' with h'
    subst h'
    rw [if_neg (by rw [he]; simp), hv]
    simp only [List.tail_cons]
    unfold holeIndex
    split <;> simp

theorem print_lit (args : List Bytes) {c : Byte} (h : c ≠ c!"$") (rest : Bytes) :
    print args (c :: rest) = (if c = 9 then b!"    " else if c = 8 then [] else [c]) ++ print args rest := by
  rw [print.eq_def]
  simp only [if_neg h]
  by_cases h9 : c = 9
  · rw [if_pos h9, if_pos h9]
  · rw [if_neg h9, if_neg h9]
    by_cases h8 : c = 8
    · rw [if_neg (by simp [h8]), if_pos h8]; rfl
    · rw [if_pos h8, if_neg h8]; rfl

theorem print_nil (args : List Bytes) : print args [] = [] := by rw [print.eq_def]

/-- A `$` without a partner ends the output. -/
theorem print_single (args : List Bytes) {rest : Bytes} (h : ∀ c ∈ rest, c ≠ c!"$") : print args (c!"$" :: rest) = [] := by
  rw [print.eq_def]
  simp only [if_true]
  split
  · rfl
  · rename_i e h'; rw [fromDollar_none h] at h'; cases h'

/-- Something else than a number between two `$` ends the output. -/
theorem print_word (args : List Bytes) {d rest : Bytes} (h : ∀ c ∈ d, c ≠ c!"$")
    (hs : strtolEnd (d ++ c!"$" :: rest) ≠ c!"$" :: rest) : print args (c!"$" :: d ++ c!"$" :: rest) = [] := by
  rw [List.cons_append, print.eq_def]
  simp only [if_true]
  split
  · rfl
  · rename_i e h'
    rw [fromDollar_append h] at h'
    injection h' with h'
    subst h'
    rw [if_pos hs]

theorem holeIndex_small {n : Nat} (h : n < 2 ^ 31) : holeIndex n = n - 1 := by
  unfold holeIndex
  show (_ - IKind.lo .i32) % (2 ^ IKind.bits .i32) + IKind.lo .i32 - 1 = _
  have e1 : IKind.lo .i32 = -2147483648 := by decide
  have e2 : ((2 : Int) ^ IKind.bits .i32) = 4294967296 := by decide
  rw [e1, e2]
  omega

theorem print_piece (args : List Bytes) {p : Piece} (h : p.WF) (h8 : p ≠ .lit 8) (rest : Bytes) :
    print args (p.text ++ rest) = p.filled args ++ print args rest := by
  cases p with
  | lit c =>
    have hc : c ≠ 8 := fun e => h8 (by rw [e])
    have h : c ≠ c!"$" := h
    simp only [Piece.text, List.cons_append, List.nil_append]
    rw [print_lit args h, if_neg hc]
    rfl
  | hole d =>
    obtain ⟨hd, hn⟩ := h
    have := print_hole args (rest := rest) hd
    simp only [Piece.text, List.append_assoc, List.cons_append, List.nil_append] at this ⊢
    rw [this, holeIndex_small hn]
    congr 1
    simp only [Piece.filled]
    generalize numeral d = k
    cases k with
    | zero => rfl
    | succ n =>
      dsimp only
      have e : ((n + 1 : Nat) : Int) - 1 = n := by omega
      rw [e]
      by_cases hl : n < args.length
      · rw [if_neg (by omega)]; rfl
      · rw [if_pos (by omega), List.getElem?_eq_none (by omega)]; rfl

theorem print_template (args : List Bytes) {ps : List Piece} (h : ∀ p ∈ ps, p.WF ∧ p ≠ .lit 8) (rest : Bytes) :
    print args (templateText ps ++ rest) = filled args ps ++ print args rest := by
  induction ps with
  | nil => rfl
  | cons p ps ih =>
    simp only [templateText, filled, List.flatMap_cons, List.append_assoc] at ih ⊢
    rw [print_piece args (h p List.mem_cons_self).1 (h p List.mem_cons_self).2,
      ih fun q hq => h q (List.mem_cons_of_mem _ hq)]

/-! ### Reading a template -/

/-- The pieces of a text, if it is a template; `st` are the digits of the hole being read. -/
def pieces : Bytes → Option Bytes → Option (List Piece)
  | [], none => some []
  | [], some _ => none
  | c :: r, none => if c = c!"$" then pieces r (some []) else (pieces r none).map (.lit c :: ·)
  | c :: r, some d =>
    if c = c!"$" then (if d = [] then none else (pieces r none).map (.hole d :: ·))
    else if isDigit c then pieces r (some (d ++ [c])) else none

/-- What has been read of a hole. -/
def opened : Option Bytes → Bytes
  | none => []
  | some d => c!"$" :: d

theorem pieces_text : ∀ (s : Bytes) (st : Option Bytes) (ps : List Piece), pieces s st = some ps →
    templateText ps = opened st ++ s
  | [], none, ps, h => by injection h with h; subst h; rfl
  | [], some _, ps, h => by cases h
  | c :: r, none, ps, h => by
    rw [pieces] at h
    split at h
    · rename_i hc
      subst hc
      rw [pieces_text r _ ps h]; rfl
    · cases hr : pieces r none with
      | none => rw [hr] at h; cases h
      | some qs =>
        rw [hr] at h
        injection h with h
        subst h
        have := pieces_text r none qs hr
        simp only [templateText, List.flatMap_cons, Piece.text] at this ⊢
        rw [this]; rfl
  | c :: r, some d, ps, h => by
    rw [pieces] at h
    split at h
    · rename_i hc
      subst hc
      split at h
      · cases h
      cases hr : pieces r none with
      | none => rw [hr] at h; cases h
      | some qs =>
        rw [hr] at h
        injection h with h
        subst h
        have := pieces_text r none qs hr
        simp only [templateText, List.flatMap_cons, Piece.text] at this ⊢
        rw [this]; simp [opened]
    · split at h
      · rw [pieces_text r _ ps h]; simp [opened]
      · cases h

instance (p : Piece) : Decidable p.WF := by
  cases p <;> unfold Piece.WF <;> infer_instance

/-! ### Any text as a template -/

theorem digitRun_split (s : Bytes) : ∀ v, ∃ ds, s = ds ++ (digitRun s v).2 ∧ (∀ c ∈ ds, isDigit c = true) ∧
    (digitRun s v).1 = digitsVal v ds := by
  induction s with
  | nil => intro v; exact ⟨[], rfl, by simp, rfl⟩
  | cons b s ih =>
    intro v
    rw [digitRun]
    by_cases hb : isDigit b = true
    · rw [if_pos hb]
      obtain ⟨ds, h1, h2, h3⟩ := ih (v * 10 + (b.toNat - 48))
      refine ⟨b :: ds, ?_, ?_, ?_⟩
      · rw [List.cons_append, ← h1]
      · intro c hc
        rcases List.mem_cons.mp hc with rfl | hc
        · exact hb
        · exact h2 c hc
      · rw [h3]; rfl
    · rw [if_neg hb]
      exact ⟨[], rfl, by simp, rfl⟩

theorem takeWhile_all {p : Byte → Bool} (s : Bytes) : ∀ c ∈ s.takeWhile p, p c = true := by
  induction s with
  | nil => simp
  | cons b s ih =>
    intro c hc
    by_cases hb : p b = true
    · rw [List.takeWhile_cons_of_pos hb] at hc
      rcases List.mem_cons.mp hc with rfl | hc
      · exact hb
      · exact ih c hc
    · rw [List.takeWhile_cons_of_neg hb] at hc; cases hc

theorem space_iff {c : Byte} : isSpace c = true ↔ c = 32 ∨ (9 ≤ c ∧ c ≤ 13) := by
  simp [isSpace]

theorem digit_iff {c : Byte} : isDigit c = true ↔ 48 ≤ c ∧ c ≤ 57 := by simp [isDigit]

/-- What `strtol` has read. -/
theorem scan_split {r rest : Bytes} {neg : Bool} {m : Nat} (h : strtolScan r = some (neg, m, rest)) :
    ∃ ws sign ds, r = ws ++ sign ++ ds ++ rest ∧ (∀ c ∈ ws, isSpace c = true) ∧
      (sign = [] ∨ sign = b!"+" ∨ sign = b!"-") ∧ (neg = true ↔ sign = b!"-") ∧ ds ≠ [] ∧ (∀ c ∈ ds, isDigit c = true) ∧
      m = numeral ds := by
  unfold strtolScan at h
  have hr : r = r.takeWhile isSpace ++ r.dropWhile isSpace := List.takeWhile_append_dropWhile.symm
  have hw := takeWhile_all (p := isSpace) r
  revert h hr hw
  generalize r.takeWhile isSpace = ws
  generalize r.dropWhile isSpace = s
  intro h hr hw
  subst hr
  have key : ∀ (sign s : Bytes) (neg0 : Bool), (match s with
      | b :: t => if isDigit b then let r := digitRun (b :: t) 0; some (neg0, r.1, r.2) else none
      | [] => none) = some (neg, m, rest) → (sign = [] ∨ sign = b!"+" ∨ sign = b!"-") → (neg0 = true ↔ sign = b!"-") →
      ∃ ws' sign' ds, ws ++ (sign ++ s) = ws' ++ sign' ++ ds ++ rest ∧ (∀ c ∈ ws', isSpace c = true) ∧
      (sign' = [] ∨ sign' = b!"+" ∨ sign' = b!"-") ∧ (neg = true ↔ sign' = b!"-") ∧ ds ≠ [] ∧ (∀ c ∈ ds, isDigit c = true) ∧
      m = numeral ds := by
    intro sign s neg0 h hs hn
    split at h
    · rename_i b t
      by_cases hb : isDigit b = true
      · rw [if_pos hb] at h
        obtain ⟨ds, h1, h2, h3⟩ := digitRun_split (b :: t) 0
        simp only [Option.some.injEq, Prod.mk.injEq] at h
        obtain ⟨e1, e2, e3⟩ := h
        rw [e3] at h1
        refine ⟨ws, sign, ds, ?_, hw, hs, by rw [← e1]; exact hn, ?_, h2, ?_⟩
        · rw [h1]; simp
        · rintro rfl
          rw [List.nil_append] at h1
          rw [digitRun, if_pos hb] at e3
          obtain ⟨d2, k1, -, -⟩ := digitRun_split t (0 * 10 + (b.toNat - 48))
          have l1 := congrArg List.length k1
          rw [e3, ← h1] at l1
          simp only [List.length_append, List.length_cons] at l1
          omega
        · rw [← e2, h3, numeral_digitsVal]
      · rw [if_neg hb] at h; cases h
    · cases h
  cases s with
  | nil => exact absurd h (by simp)
  | cons b t =>
    by_cases h1 : b = c!"-"
    · subst h1
      exact key b!"-" t true h (by simp) (by simp)
    · by_cases h2 : b = c!"+"
      · subst h2
        exact key b!"+" t false h (by simp) (by decide)
      · simp only [h1, h2, if_false] at h
        exact key [] (b :: t) false h (by simp) (by decide)

theorem scan_slot {ws sign ds rest : Bytes} (hw : ∀ c ∈ ws, isSpace c = true)
    (hs : sign = [] ∨ sign = b!"+" ∨ sign = b!"-") (hd : ds ≠ [] ∧ ∀ c ∈ ds, 48 ≤ c ∧ c ≤ 57) :
    strtolScan (ws ++ sign ++ ds ++ c!"$" :: rest) = some (decide (sign = b!"-"), numeral ds, c!"$" :: rest) := by
  have h0 := scan_hole (rest := rest) hd
  obtain ⟨b, t, rfl⟩ := List.exists_cons_of_ne_nil hd.1
  have hb := digit_isDigit (hd.2 b List.mem_cons_self)
  have drop : ∀ s : Bytes, (ws ++ s).dropWhile isSpace = s.dropWhile isSpace := by
    intro s
    clear hs h0 hd
    induction ws with
    | nil => rfl
    | cons c ws ih =>
      rw [List.cons_append, List.dropWhile_cons_of_pos (hw c List.mem_cons_self)]
      exact ih fun c hc => hw c (List.mem_cons_of_mem _ hc)
  unfold strtolScan at h0 ⊢
  rw [List.append_assoc, List.append_assoc, drop]
  rw [List.cons_append, List.dropWhile_cons_of_neg (by simp [digit_not_space hb])] at h0
  simp only [(digit_not_sign hb).1, (digit_not_sign hb).2, if_false, hb, if_true] at h0
  rcases hs with rfl | rfl | rfl
  · rw [List.nil_append, List.cons_append, List.dropWhile_cons_of_neg (by simp [digit_not_space hb])]
    simp only [(digit_not_sign hb).1, (digit_not_sign hb).2, if_false, hb, if_true]
    exact h0
  · rw [List.cons_append, List.cons_append, List.dropWhile_cons_of_neg (by decide), List.nil_append]
    simp only [show ¬ ((43 : Byte) = 45) by decide, if_false, hb, if_true]
    exact h0
  · rw [List.cons_append, List.cons_append, List.dropWhile_cons_of_neg (by decide), List.nil_append]
    simp only [hb, if_true, Option.some.injEq, Prod.mk.injEq] at h0 ⊢
    exact ⟨by decide, h0.2⟩

theorem narrow_cast (z : Int) : (CInt.cast .i32 z).val = (z + 2 ^ 31) % 2 ^ 32 - 2 ^ 31 := by
  show (_ - IKind.lo .i32) % (2 ^ IKind.bits .i32) + IKind.lo .i32 = _
  have e1 : IKind.lo .i32 = -2147483648 := by decide
  have e2 : ((2 : Int) ^ IKind.bits .i32) = 4294967296 := by decide
  rw [e1, e2]
  omega

/-- A slot is read up to its end, with its number. -/
theorem slot_reads {i : Bytes} {z : Int} (h : Slot i z) (rest : Bytes) :
    strtolEnd (i ++ c!"$" :: rest) = c!"$" :: rest ∧ (∀ c ∈ i, c ≠ c!"$") ∧
      (CInt.cast .i32 (strtol (i ++ c!"$" :: rest))).val = narrowed z := by
  cases h with
  | none =>
    have hs : strtolScan (c!"$" :: rest) = none := by
      unfold strtolScan
      rw [List.dropWhile_cons_of_neg (by decide)]
      rfl
    refine ⟨?_, by simp, ?_⟩
    · unfold strtolEnd; rw [List.nil_append, hs]
    · unfold strtol; rw [List.nil_append, hs]; decide
  | @num ws sign ds h1 h2 h3 h4 =>
    have hs := scan_slot (rest := rest) (fun c hc => space_iff.mpr (h1 c hc)) h2 ⟨h3, h4⟩
    refine ⟨?_, ?_, ?_⟩
    · unfold strtolEnd; rw [hs]
    · intro c hc e
      subst e
      rcases List.mem_append.mp hc with hc | hc
      · rcases List.mem_append.mp hc with hc | hc
        · exact absurd (h1 _ hc) (by decide)
        · rcases h2 with rfl | rfl | rfl <;> revert hc <;> decide
      · exact absurd (h4 _ hc) (by decide)
    · unfold strtol
      rw [hs, narrow_cast]
      simp only [narrowed, decide_eq_true_eq]
      split <;> omega

/-- Conversely, what is read up to the next `$` is a slot. -/
theorem slot_of_reads {r e : Bytes} (hf : fromDollar r = some e) (h : strtolEnd r = e) :
    ∃ i z t, Slot i z ∧ r = i ++ c!"$" :: t ∧ e = c!"$" :: t := by
  obtain ⟨t, rfl⟩ : ∃ t, e = c!"$" :: t := by
    clear h
    induction r with
    | nil => cases hf
    | cons b r ih =>
      rw [fromDollar] at hf
      split at hf
      · rename_i hb
        subst hb
        injection hf with hf
        exact ⟨r, hf.symm⟩
      · exact ih hf
  unfold strtolEnd at h
  split at h
  · exact ⟨[], 0, t, .none, by simpa using h, rfl⟩
  · rename_i neg m rest hs
    obtain ⟨ws, sign, ds, e1, e2, e3, -, e5, e6, -⟩ := scan_split hs
    subst h
    exact ⟨_, _, t, .num (fun c hc => space_iff.mp (e2 c hc)) e3 e5 (fun c hc => digit_iff.mp (e6 c hc)), e1, rfl⟩

theorem print_slot (args : List Bytes) {i : Bytes} {z : Int} (h : Slot i z) (rest : Bytes) :
    print args (c!"$" :: i ++ c!"$" :: rest) = argument args (narrowed z) ++ print args rest := by
  obtain ⟨h1, h2, h3⟩ := slot_reads h rest
  rw [List.cons_append, print.eq_def]
  simp only [if_true]
  split
  · rename_i h'; rw [fromDollar_append h2] at h'; cases h'
  · rename_i e h'
    rw [fromDollar_append h2] at h'
    injection h' with h'
    subst h'
    rw [if_neg (by simp [h1])]
    simp only [h3, List.tail_cons]
    unfold argument
    by_cases hz : 1 ≤ narrowed z
    · rw [if_pos hz]
      by_cases hl : (args.length : Int) ≤ narrowed z - 1
      · rw [if_pos (.inr hl), List.getElem?_eq_none (by omega)]; rfl
      · rw [if_neg (by omega)]
    · rw [if_neg hz, if_pos (.inl (by omega))]; rfl

theorem print_broken (args : List Bytes) {t : Bytes} (h : ∀ i z r, Slot i z → t ≠ i ++ c!"$" :: r) :
    print args (c!"$" :: t) = [] := by
  rw [print.eq_def]
  simp only [if_true]
  split
  · rfl
  · rename_i e h'
    by_cases hs : strtolEnd t = e
    · obtain ⟨i, z, r, h1, h2, -⟩ := slot_of_reads h' hs
      exact absurd h2 (h i z r h1)
    · rw [if_pos hs]

end PG.Gen
