import Verif.Spec.Cpp
import Verif.Proofs.Lexical
/-
The tokens of a template, whatever its arguments are.
-/
set_option autoImplicit false
namespace PG.Cpp
open PG.Gen

theorem Lex.run_append (l : Lex) (a b : Bytes) :
    l.run (a ++ b) = (l.run a).bind fun r => (r.2.run b).map fun q => (r.1 ++ q.1, q.2) := by
  induction a generalizing l with
  | nil => cases h : l.run b <;> simp [Lex.run, h]
  | cons c a ih =>
    rw [List.cons_append, Lex.run, Lex.run]
    cases h : l.step c with
    | none => rfl
    | some r =>
      simp only [Option.bind_some]
      rw [ih]
      cases r.2.run a with
      | none => rfl
      | some q =>
        simp only [Option.bind_some, Option.map_some]
        cases q.2.run b with
        | none => rfl
        | some x => simp

theorem Lex.run_some {l m k : Lex} {a b : Bytes} {s t : List Tok} (h : l.run a = some (s, m)) (h' : m.run b = some (t, k)) :
    l.run (a ++ b) = some (s ++ t, k) := by
  rw [Lex.run_append, h]
  simp [h']

/-! ### Holes -/

/-- What a hole of a template is for; `known` if the argument is always the same. -/
inductive Hole
  | word
  | type
  | label
  | key
  | known (b : Bytes)

/-- The argument is of that kind and has these tokens. -/
def Hole.Fits : Hole → Bytes → List Tok → Prop
  | .word, a, ts => a ≠ [] ∧ (∀ c ∈ a, isWord c = true) ∧ ts = [.word a]
  | .type, a, ts => ∃ b us w, a = 32 :: b ∧ Lex.run .start b = some (us, .word w) ∧ ts = us ++ [.word w]
  | .label, a, ts => Lex.run .start (a ++ [32]) = some (ts, .start)
  | .key, a, ts => Lex.run (.str []) a = some ([], .str a) ∧ ts = [.str a]
  | .known b, a, ts => a = b ∧ ts = []

/-- Where the reader is; the token of a hole may not be complete. -/
inductive SLex
  | at (l : Lex)
  | word (n : Nat)
  | type (n : Nat)
  | label (n : Nat)
  | key (n : Nat)
deriving DecidableEq

/-- A token, or those of a hole. -/
inductive STok
  | tok (t : Tok)
  | hole (n : Nat)
deriving DecidableEq, Repr

/-- The tokens, given those of the holes. -/
def inst (hs : List (List Tok)) (l : List STok) : List Tok :=
  l.flatMap fun | .tok t => [t] | .hole n => hs[n]?.getD []

theorem inst_append (hs : List (List Tok)) (a b : List STok) : inst hs (a ++ b) = inst hs a ++ inst hs b := List.flatMap_append

theorem inst_tok (hs : List (List Tok)) (l : List Tok) : inst hs (l.map .tok) = l := by
  induction l with
  | nil => rfl
  | cons t l ih => simp only [inst, List.map_cons, List.flatMap_cons] at ih ⊢; rw [ih]; rfl

/-- A character of the template. -/
def SLex.step : SLex → Byte → Option (List STok × SLex)
  | .at l, c => (l.step c).map fun r => (r.1.map .tok, .at r.2)
  | .word n, c => if isWord c then none else some ([.hole n], .at (Lex.first c))
  | .type n, c => if isWord c then none else some ([.hole n], .at (Lex.first c))
  | .label n, c => if c = 32 then some ([.hole n], .at .start) else none
  | .key n, c => if c = c!"\"" then some ([.hole n], .at .start) else none

/-- Characters of the template. -/
def SLex.steps : SLex → Bytes → Option (List STok × SLex)
  | l, [] => some ([], l)
  | l, c :: rest => (l.step c).bind fun r => (r.2.steps rest).map fun q => (r.1 ++ q.1, q.2)

/-- A hole of the template. -/
def SLex.fill (k : Hole) (n : Nat) (l : SLex) : Option (List STok × SLex) :=
  match k, l with
  | .known b, l => l.steps b
  | .word, .at .start => some ([], .word n)
  | .word, .at (.op o) => some ([.tok (.op [o])], .word n)
  | .type, .at .start => some ([], .type n)
  | .type, .at (.op o) => some ([.tok (.op [o])], .type n)
  | .label, .at .start => some ([], .label n)
  | .key, .at (.str []) => some ([], .key n)
  | _, _ => none

/-- The pieces of a template. -/
def SLex.run (ks : List Hole) : SLex → List Piece → Option (List STok × SLex)
  | l, [] => some ([], l)
  | l, .lit c :: ps => (l.steps (if c = 9 then b!"    " else [c])).bind fun r => (SLex.run ks r.2 ps).map fun q => (r.1 ++ q.1, q.2)
  | l, .hole d :: ps =>
    match numeral d with
    | 0 => SLex.run ks l ps
    | n + 1 =>
      match ks[n]? with
      | none => none
      | some k => (l.fill k n).bind fun r => (SLex.run ks r.2 ps).map fun q => (r.1 ++ q.1, q.2)

/-- The tokens of a template at the beginning of a line. -/
def tokensOf (ks : List Hole) (text : Bytes) : Option (List STok) :=
  match pieces text none with
  | none => none
  | some ps =>
    if ps.all (fun p => decide (p.WF ∧ p ≠ .lit 8)) then
      match SLex.run ks (.at .start) ps with
      | some (ts, .at .start) => some ts
      | _ => none
    else none

/-! ### The reader in a template does what the reader does in the text -/

/-- The arguments, and the tokens of them. -/
inductive FitsAll : List Hole → List Bytes → List (List Tok) → Prop
  | nil : FitsAll [] [] []
  | cons {k : Hole} {a : Bytes} {ts : List Tok} {ks : List Hole} {as : List Bytes} {hs : List (List Tok)} :
      k.Fits a ts → FitsAll ks as hs → FitsAll (k :: ks) (a :: as) (ts :: hs)

theorem FitsAll.get {ks : List Hole} {as : List Bytes} {hs : List (List Tok)} (h : FitsAll ks as hs) {n : Nat} {k : Hole}
    (hk : ks[n]? = some k) : ∃ a ts, as[n]? = some a ∧ hs[n]? = some ts ∧ k.Fits a ts := by
  induction h generalizing n with
  | nil => cases hk
  | cons hf _ ih =>
    cases n with
    | zero => injection hk with hk; subst hk; exact ⟨_, _, rfl, rfl, hf⟩
    | succ n => exact ih hk

/-- The reader with an incomplete token of a hole has read these tokens, and is at this place. -/
def Stands (hs : List (List Tok)) (as : List Bytes) : SLex → List Tok → Lex → Prop
  | .at l, ts, m => ts = [] ∧ m = l
  | .word n, ts, m => ∃ a, as[n]? = some a ∧ ts = [] ∧ m = .word a ∧ hs[n]? = some [.word a]
  | .type n, ts, m => ∃ w, m = .word w ∧ hs[n]? = some (ts ++ [.word w])
  | .label n, ts, m => ∃ us, m.step 32 = some (us, .start) ∧ hs[n]? = some (ts ++ us)
  | .key n, ts, m => ∃ a, as[n]? = some a ∧ ts = [] ∧ m = .str a ∧ hs[n]? = some [.str a]

theorem stands_step {hs : List (List Tok)} {as : List Bytes} {l l' : SLex} {m : Lex} {c : Byte} {pend : List Tok} {out : List STok}
    (hst : Stands hs as l pend m) (h : l.step c = some (out, l')) :
    ∃ us m' pend', m.step c = some (us, m') ∧ Stands hs as l' pend' m' ∧ pend ++ us = inst hs out ++ pend' := by
  cases l with
  | «at» l =>
    obtain ⟨rfl, rfl⟩ := hst
    simp only [SLex.step] at h
    obtain ⟨r, hr, h⟩ := Option.map_eq_some_iff.mp h
    cases h
    exact ⟨r.1, r.2, [], hr, ⟨rfl, rfl⟩, by rw [inst_tok]; simp⟩
  | word n =>
    obtain ⟨a, _, rfl, rfl, hn⟩ := hst
    simp only [SLex.step] at h
    split at h
    · cases h
    · rename_i hc
      cases h
      exact ⟨[.word a], Lex.first c, [], by simp [Lex.step, hc], ⟨rfl, rfl⟩, by simp [inst, hn]⟩
  | type n =>
    obtain ⟨w, rfl, hn⟩ := hst
    simp only [SLex.step] at h
    split at h
    · cases h
    · rename_i hc
      cases h
      exact ⟨[.word w], Lex.first c, [], by simp [Lex.step, hc], ⟨rfl, rfl⟩, by simp [inst, hn]⟩
  | label n =>
    obtain ⟨us, hs', hn⟩ := hst
    simp only [SLex.step] at h
    split at h
    · rename_i hc
      subst hc
      cases h
      exact ⟨us, .start, [], hs', ⟨rfl, rfl⟩, by simp [inst, hn]⟩
    · cases h
  | key n =>
    obtain ⟨a, _, rfl, rfl, hn⟩ := hst
    simp only [SLex.step] at h
    split at h
    · rename_i hc
      subst hc
      cases h
      exact ⟨[.str a], .start, [], by simp [Lex.step], ⟨rfl, rfl⟩, by simp [inst, hn]⟩
    · cases h

theorem stands_steps {hs : List (List Tok)} {as : List Bytes} {b : Bytes} {l l' : SLex} {m : Lex} {pend : List Tok} {out : List STok}
    (hst : Stands hs as l pend m) (h : l.steps b = some (out, l')) :
    ∃ us m' pend', m.run b = some (us, m') ∧ Stands hs as l' pend' m' ∧ pend ++ us = inst hs out ++ pend' := by
  induction b generalizing l m pend out with
  | nil =>
    cases h
    exact ⟨[], m, pend, rfl, hst, by simp [inst]⟩
  | cons c b ih =>
    rw [SLex.steps] at h
    obtain ⟨r, hr, h⟩ := Option.bind_eq_some_iff.mp h
    obtain ⟨q, hq, h⟩ := Option.map_eq_some_iff.mp h
    cases h
    obtain ⟨us, m', pend', h1, h2, h3⟩ := stands_step hst hr
    obtain ⟨vs, m'', pend'', h4, h5, h6⟩ := ih h2 hq
    refine ⟨us ++ vs, m'', pend'', ?_, h5, ?_⟩
    · rw [Lex.run, h1]
      simp [h4]
    · rw [inst_append, List.append_assoc, ← h6, ← List.append_assoc, h3, List.append_assoc]

theorem run_word {a : Bytes} (hc : ∀ c ∈ a, isWord c = true) (w : Bytes) : Lex.run (.word w) a = some ([], .word (w ++ a)) := by
  induction a generalizing w with
  | nil => simp [Lex.run]
  | cons c a ih =>
    rw [Lex.run, Lex.step, if_pos (hc c (by simp))]
    simp only [Option.bind_some]
    rw [ih (fun x hx => hc x (List.mem_cons_of_mem _ hx))]
    simp

theorem first_word {c : Byte} (h : isWord c = true) : Lex.first c = .word [c] := by
  have hs : isSpace c = false := by
    cases hs : isSpace c
    · rfl
    · simp only [isSpace, Bool.or_eq_true, decide_eq_true_eq] at hs
      rcases hs with ((rfl | rfl) | rfl) | rfl <;> revert h <;> decide
  rw [Lex.first, hs, h]
  rfl

theorem run_first {a : Bytes} (ha : a ≠ []) (hc : ∀ c ∈ a, isWord c = true) : Lex.run .start a = some ([], .word a) := by
  cases a with
  | nil => exact absurd rfl ha
  | cons c a =>
    rw [Lex.run, Lex.step, first_word (hc c (by simp))]
    simp only [Option.bind_some]
    rw [run_word (fun x hx => hc x (List.mem_cons_of_mem _ hx))]
    rfl

theorem word_not_second {o c : Byte} (h : isWord c = true) : [o, c] ∉ doubles ∧ c ≠ c!"/" ∧ c ≠ c!"*" := by
  refine ⟨fun hm => ?_, by rintro rfl; revert h; decide, by rintro rfl; revert h; decide⟩
  have hall : ∀ d ∈ doubles, ∀ x ∈ d.drop 1, isWord x = false := by decide
  have := hall _ hm c (by simp)
  rw [h] at this
  cases this

theorem step_op {o c : Byte} (h : isWord c = true ∨ c = 32) : Lex.step (.op o) c = some ([.op [o]], Lex.first c) := by
  have : [o, c] ∉ doubles ∧ c ≠ c!"/" ∧ c ≠ c!"*" := by
    rcases h with h | rfl
    · exact word_not_second h
    · refine ⟨fun hm => ?_, by decide, by decide⟩
      have hall : ∀ d ∈ doubles, ∀ x ∈ d.drop 1, x ≠ 32 := by decide
      exact hall _ hm 32 (by simp) rfl
  obtain ⟨h1, h2, h3⟩ := this
  rw [Lex.step, if_neg (fun h => h2 h.2), if_neg (fun h => h3 h.2), if_neg h1]

theorem stands_fill {hs : List (List Tok)} {as : List Bytes} {k : Hole} {n : Nat} {a : Bytes} {ts : List Tok} (hf : k.Fits a ts)
    (ha : as[n]? = some a) (hn : hs[n]? = some ts) {l l' : SLex} {m : Lex} {pend : List Tok} {out : List STok}
    (hst : Stands hs as l pend m) (h : l.fill k n = some (out, l')) :
    ∃ us m' pend', m.run a = some (us, m') ∧ Stands hs as l' pend' m' ∧ pend ++ us = inst hs out ++ pend' := by
  unfold SLex.fill at h
  split at h
  · obtain ⟨rfl, -⟩ := hf
    exact stands_steps hst h
  · cases h
    obtain ⟨rfl, rfl⟩ := hst
    obtain ⟨h1, h2, rfl⟩ := hf
    exact ⟨[], .word a, [], run_first h1 h2, ⟨a, ha, rfl, rfl, hn⟩, by simp [inst]⟩
  · rename_i o
    cases h
    obtain ⟨rfl, rfl⟩ := hst
    obtain ⟨h1, h2, rfl⟩ := hf
    cases a with
    | nil => exact absurd rfl h1
    | cons c a =>
      refine ⟨[.op [o]], .word (c :: a), [], ?_, ⟨_, ha, rfl, rfl, hn⟩, by simp [inst]⟩
      rw [Lex.run, step_op (.inl (h2 c (by simp))), first_word (h2 c (by simp))]
      simp only [Option.bind_some]
      rw [run_word (fun x hx => h2 x (List.mem_cons_of_mem _ hx))]
      rfl
  · cases h
    obtain ⟨rfl, rfl⟩ := hst
    obtain ⟨b, us, w, rfl, h1, rfl⟩ := hf
    refine ⟨us, .word w, us, ?_, ⟨w, rfl, hn⟩, by simp [inst]⟩
    rw [Lex.run]
    have e : Lex.step .start 32 = some ([], .start) := by decide
    rw [e]
    simp [h1]
  · rename_i o
    cases h
    obtain ⟨rfl, rfl⟩ := hst
    obtain ⟨b, us, w, rfl, h1, rfl⟩ := hf
    refine ⟨.op [o] :: us, .word w, us, ?_, ⟨w, rfl, hn⟩, by simp [inst]⟩
    rw [Lex.run, step_op (.inr rfl)]
    have e : Lex.first 32 = .start := by decide
    rw [e]
    simp [h1]
  · cases h
    obtain ⟨rfl, rfl⟩ := hst
    change Lex.run .start (a ++ [32]) = some (ts, .start) at hf
    rw [Lex.run_append] at hf
    obtain ⟨r, hr, hf⟩ := Option.bind_eq_some_iff.mp hf
    obtain ⟨q, hq, hf⟩ := Option.map_eq_some_iff.mp hf
    rw [Lex.run] at hq
    obtain ⟨x, hx, hq⟩ := Option.bind_eq_some_iff.mp hq
    cases hq
    injection hf with h1 h2
    simp only [List.append_nil] at h1
    refine ⟨r.1, r.2, r.1, hr, ⟨x.1, ?_, ?_⟩, by simp [inst]⟩
    · rw [hx]; exact congrArg some (Prod.ext rfl h2)
    · rw [hn, ← h1]
  · cases h
    obtain ⟨rfl, rfl⟩ := hst
    obtain ⟨h1, rfl⟩ := hf
    exact ⟨[], .str a, [], h1, ⟨a, ha, rfl, rfl, hn⟩, by simp [inst]⟩
  · cases h

theorem stands_run {hs : List (List Tok)} {as : List Bytes} {ks : List Hole} (hf : FitsAll ks as hs) {ps : List Piece} {l l' : SLex}
    {m : Lex} {pend : List Tok} {out : List STok} (hst : Stands hs as l pend m) (h : SLex.run ks l ps = some (out, l')) :
    ∃ us m' pend', m.run (filled as ps) = some (us, m') ∧ Stands hs as l' pend' m' ∧ pend ++ us = inst hs out ++ pend' := by
  induction ps generalizing l m pend out with
  | nil =>
    cases h
    exact ⟨[], m, pend, rfl, hst, by simp [inst]⟩
  | cons p ps ih =>
    rw [show filled as (p :: ps) = p.filled as ++ filled as ps from List.flatMap_cons]
    have go : ∀ {b : Bytes} {o1 : List STok} {l1 : SLex} {o2 : List STok}, (∃ us m' pend', m.run b = some (us, m') ∧
        Stands hs as l1 pend' m' ∧ pend ++ us = inst hs o1 ++ pend') → SLex.run ks l1 ps = some (o2, l') → out = o1 ++ o2 →
        ∃ us m' pend', m.run (b ++ filled as ps) = some (us, m') ∧ Stands hs as l' pend' m' ∧ pend ++ us = inst hs out ++ pend' := by
      rintro b o1 l1 o2 ⟨us, m', pend', h1, h2, h3⟩ h4 rfl
      obtain ⟨vs, m'', pend'', h5, h6, h7⟩ := ih h2 h4
      refine ⟨us ++ vs, m'', pend'', Lex.run_some h1 h5, h6, ?_⟩
      rw [inst_append, List.append_assoc, ← h7, ← List.append_assoc, h3, List.append_assoc]
    cases p with
    | lit c =>
      rw [SLex.run] at h
      obtain ⟨r, hr, h⟩ := Option.bind_eq_some_iff.mp h
      obtain ⟨q, hq, h⟩ := Option.map_eq_some_iff.mp h
      cases h
      exact go (stands_steps hst hr) hq rfl
    | hole d =>
      rw [SLex.run] at h
      rw [Piece.filled]
      split at h
      · rename_i e; rw [e]; exact ih hst h
      · rename_i n e
        rw [e]
        split at h
        · cases h
        · rename_i k hk
          obtain ⟨r, hr, h⟩ := Option.bind_eq_some_iff.mp h
          obtain ⟨q, hq, h⟩ := Option.map_eq_some_iff.mp h
          cases h
          obtain ⟨a, ts, ha, hn, hfit⟩ := hf.get hk
          simp only [ha, Option.getD_some]
          exact go (stands_fill hfit ha hn hst hr) hq rfl

/-- The tokens of a template with arguments. -/
theorem tokens_print {hs : List (List Tok)} {as : List Bytes} {ks : List Hole} (hf : FitsAll ks as hs) {text : Bytes}
    {out : List STok} (h : tokensOf ks text = some out) : Lex.run .start (print as text) = some (inst hs out, .start) := by
  unfold tokensOf at h
  split at h
  · cases h
  · rename_i ps hps
    split at h
    · rename_i hw
      split at h
      · rename_i ts hr
        injection h with h
        subst h
        have e := pieces_text text none ps hps
        rw [show text = templateText ps from e.symm, C40_substitution_partial as fun p hp => by
          rw [List.all_eq_true] at hw
          exact of_decide_eq_true (hw p hp)]
        obtain ⟨us, m', pend', h1, ⟨rfl, rfl⟩, h3⟩ := stands_run hf (l := .at .start) (m := .start) ⟨rfl, rfl⟩ hr
        rw [h1]
        simp only [List.nil_append, List.append_nil] at h3
        rw [h3]
      · cases h
    · cases h

end PG.Cpp
