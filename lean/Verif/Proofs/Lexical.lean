import Verif.Props.Labels
import Verif.Props.Names
import Verif.Props.Printer
import Verif.Spec.Lexical
/-
The outer form of what the templates produce.
-/
set_option autoImplicit false
namespace PG.Gen
open PG.Proto

namespace Scan

theorem run_append (s : Scan) (a b : Bytes) : s.run (a ++ b) = (s.run a).bind fun s => s.run b := by
  induction a generalizing s with
  | nil => rfl
  | cons c a ih =>
    rw [List.cons_append, run, run]
    cases s.step c with
    | none => rfl
    | some s => exact ih s

theorem run_some {s u v : Scan} {a b : Bytes} (h : s.run a = some u) (k : u.run b = some v) : s.run (a ++ b) = some v := by
  rw [run_append, h]; exact k

/-! ### What is open further out does not matter -/

/-- More is open outside. -/
def under (s : Scan) (x : List Open) : Scan := { s with opened := s.opened ++ x }

theorem close_under {s t : Scan} {o : Open} (x : List Open) (h : s.close o = some t) : (s.under x).close o = some (t.under x) := by
  obtain ⟨sp, d, os⟩ := s
  cases os with
  | nil => cases h
  | cons p os =>
    simp only [close, under, List.cons_append] at h ⊢
    split at h
    · rename_i e
      injection h with h
      subst h
      rw [if_pos e]
    · cases h

theorem newline_under {s t : Scan} (x : List Open) (h : s.newline = some t) : (s.under x).newline = some (t.under x) := by
  unfold newline at h ⊢
  split at h
  · rename_i hd
    rw [if_pos (show (s.under x).directive = true from hd)]
    exact close_under x h
  · rename_i hd
    rw [if_neg (show ¬ (s.under x).directive = true from hd)]
    injection h with h
    subst h
    rfl

theorem ite_under {p : Prop} [Decidable p] {a b a' b' : Option Scan} {t t' : Scan} (ha : a = some t → a' = some t')
    (hb : b = some t → b' = some t') (h : (if p then a else b) = some t) : (if p then a' else b') = some t' := by
  split at h
  · rename_i hp; rw [if_pos hp]; exact ha h
  · rename_i hp; rw [if_neg hp]; exact hb h

theorem some_under {s t : Scan} {u : Scan} (x : List Open) (e : u = s.under x) (h : some s = some t) : some u = some (t.under x) := by
  injection h with h; subst h; rw [e]

theorem code_under {s t : Scan} {c : Byte} (x : List Open) (h : s.code c = some t) : (s.under x).code c = some (t.under x) := by
  unfold code at h ⊢
  dsimp only at h ⊢
  repeat' first
    | exact newline_under x h
    | exact close_under x h
    | exact some_under x rfl h
    | (revert h; refine ite_under ?_ ?_ <;> intro h)

theorem word_under {s t : Scan} {w : Bytes} (x : List Open) (h : s.word w = some t) : (s.under x).word w = some (t.under x) := by
  unfold word at h ⊢
  dsimp only at h ⊢
  refine ite_under (fun k => some_under x rfl k) (fun k => ?_) h
  refine ite_under (fun k => ?_) (fun k => ite_under (fun k => ?_) (fun k => some_under x rfl k) k) k
  · obtain ⟨u, hu, rfl⟩ := Option.map_eq_some_iff.mp k
    rw [close_under x hu]; rfl
  · obtain ⟨u, hu, rfl⟩ := Option.map_eq_some_iff.mp k
    rw [close_under x hu]; rfl

theorem step_under {s t : Scan} {c : Byte} (x : List Open) (h : s.step c = some t) : (s.under x).step c = some (t.under x) := by
  unfold step at h ⊢
  have e : (s.under x).spot = s.spot := rfl
  rw [e]
  cases hs : s.spot <;> rw [hs] at h <;> dsimp only at h ⊢
  case hash w =>
    refine ite_under (fun k => some_under x rfl k) (fun k => ?_) h
    obtain ⟨u, hu, k⟩ := Option.bind_eq_some_iff.mp k
    rw [word_under x hu]
    exact code_under x k
  all_goals repeat' first
    | exact code_under x h
    | exact newline_under x h
    | exact some_under x rfl h
    | cases h
    | (revert h; refine ite_under ?_ ?_ <;> intro h)

theorem run_under {s t : Scan} {a : Bytes} (x : List Open) (h : s.run a = some t) : (s.under x).run a = some (t.under x) := by
  induction a generalizing s with
  | nil => injection h with h; subst h; rfl
  | cons c a ih =>
    obtain ⟨u, hu, h⟩ := Option.bind_eq_some_iff.mp h
    rw [run, step_under x hu]
    exact ih h

end Scan

/-! ### Templates -/

/-- What a hole of a template is for: a name, a number or a type; an expression for a label; the text of a label. -/
inductive HoleKind
  | word
  | label
  | key
deriving DecidableEq, Repr

/-- The effect of an argument of this kind. -/
def HoleKind.run (k : HoleKind) (s : Scan) : Option Scan :=
  match k, s.spot with
  | .word, .start => some { s with spot := .code }
  | .word, .code => some s
  | .word, .line => some s
  | .word, .str => some s
  | .label, .code => some s
  | .key, .str => some s
  | _, _ => none

/-- The argument has that effect. -/
def HoleKind.Fits (k : HoleKind) (a : Bytes) : Prop := ∀ s t, k.run s = some t → s.run a = some t

/-- The effect of the pieces of a template. -/
def runPieces (kinds : List HoleKind) : Scan → List Piece → Option Scan
  | s, [] => some s
  | s, .lit c :: r => (s.run (if c = 9 then b!"    " else [c])).bind fun s => runPieces kinds s r
  | s, .hole d :: r =>
    match numeral d with
    | 0 => runPieces kinds s r
    | n + 1 => match kinds[n]? with
      | none => none
      | some k => (k.run s).bind fun s => runPieces kinds s r

/-- The arguments fit. -/
inductive FitAll : List HoleKind → List Bytes → Prop
  | nil : FitAll [] []
  | cons {k : HoleKind} {a : Bytes} {ks : List HoleKind} {as : List Bytes} : k.Fits a → FitAll ks as → FitAll (k :: ks) (a :: as)

theorem FitAll.get {ks : List HoleKind} {as : List Bytes} (h : FitAll ks as) {n : Nat} {k : HoleKind} (hk : ks[n]? = some k) :
    ∃ a, as[n]? = some a ∧ k.Fits a := by
  induction h generalizing n with
  | nil => cases hk
  | cons hf _ ih =>
    cases n with
    | zero => injection hk with hk; subst hk; exact ⟨_, rfl, hf⟩
    | succ n => exact ih hk

theorem runPieces_filled {kinds : List HoleKind} {args : List Bytes} (hf : FitAll kinds args) {ps : List Piece} {s t : Scan}
    (h : runPieces kinds s ps = some t) : s.run (filled args ps) = some t := by
  induction ps generalizing s with
  | nil => exact h
  | cons p ps ih =>
    rw [show filled args (p :: ps) = p.filled args ++ filled args ps from List.flatMap_cons]
    cases p with
    | lit c =>
      obtain ⟨u, hu, h⟩ := Option.bind_eq_some_iff.mp h
      exact Scan.run_some hu (ih h)
    | hole d =>
      rw [runPieces] at h
      rw [Piece.filled]
      split at h
      · rename_i e; rw [e]; exact ih h
      · rename_i n e
        rw [e]
        split at h
        · cases h
        · rename_i k hk
          obtain ⟨u, hu, h⟩ := Option.bind_eq_some_iff.mp h
          obtain ⟨a, ha, hfit⟩ := hf.get hk
          simp only [ha, Option.getD_some]
          exact Scan.run_some (hfit _ _ hu) (ih h)

/-- The effect of a template. -/
def runTemplate (kinds : List HoleKind) (text : Bytes) (s : Scan) : Option Scan :=
  match pieces text none with
  | none => none
  | some ps => if ps.all (fun p => decide (p.WF ∧ p ≠ .lit 8)) then runPieces kinds s ps else none

theorem run_print {kinds : List HoleKind} {args : List Bytes} (hf : FitAll kinds args) {text : Bytes} {s t : Scan}
    (h : runTemplate kinds text s = some t) : s.run (print args text) = some t := by
  unfold runTemplate at h
  split at h
  · cases h
  · rename_i ps hps
    split at h
    · rename_i hw
      have e := pieces_text text none ps hps
      rw [show text = templateText ps from e.symm, C40_substitution_partial args fun p hp => by
        rw [List.all_eq_true] at hw
        exact of_decide_eq_true (hw p hp)]
      exact runPieces_filled hf h
    · cases h

/-- The templates from the beginning of a line to the beginning of a line: the kinds of the arguments, what has to be open
before, and what is open afterwards. -/
def effects : List (Tpl × List HoleKind × List Open × List Open) :=
  [ (.jsonModelHeader, [.word, .word], [], [.curly, .curly]), (.jsonModelFooter, [.word], [.curly, .curly], []),
    (.readFieldEmpty, [.word], [], []), (.readFieldHeader, [.word], [], [.curly, .curly]),
    (.readFieldItem, [.word, .word], [], []), (.readFieldFooter, [], [.curly, .curly], []),
    (.writeEmpty, [.word], [], []), (.writeHeader, [.word, .word], [], [.curly]), (.writeItem, [.word, .label], [], []),
    (.writeFooter, [], [.curly], []),
    (.emptyEmpty, [.word], [], []), (.emptyHeader, [.word], [], [.curly]), (.emptyItem, [.word], [], []),
    (.emptyFooter, [], [.curly], []),
    (.clearEmpty, [.word], [], []), (.clearHeader, [.word], [], [.curly]), (.clearItem, [.word], [], []),
    (.clearFooter, [], [.curly], []),
    (.equalEmpty, [.word], [], []), (.equalHeader, [.word], [], [.curly]), (.equalItem, [.word], [], []),
    (.equalFooter, [], [.curly], []),
    (.swapEmpty, [.word], [], []), (.swapHeader, [.word], [], [.curly]), (.swapItem, [.word], [], []),
    (.swapFooter, [], [.curly], []),
    (.indexEmpty, [], [], []), (.indexHeader, [], [], [.curly, .curly]), (.indexHeaderObf, [], [], [.curly, .curly]),
    (.indexItem, [.key, .word], [], []), (.indexFooter, [], [.curly, .curly], []),
    (.entity, [.word, .word, .word], [], []), (.entityJson, [.word, .word, .word], [], []),
    (.namespaceOpen, [.word], [], [.curly]), (.namespaceClose, [.word], [.curly], []),
    (.structOpen, [.word], [], [.curly]), (.structField, [.word, .word], [], []), (.structClose, [], [.curly], []),
    (.title, [.word], [], []), (.endGuard, [.word], [.cond], []) ]

theorem effects_right : ∀ e ∈ effects,
    runTemplate e.2.1 (e.1.text noRuntime) ⟨.start, false, e.2.2.1⟩ = some ⟨.start, false, e.2.2.2⟩ := by decide +kernel

theorem effects_not_runtime : ∀ e ∈ effects, ∀ p, e.1 ≠ .runtime p := by
  intro x hx p e
  have : ∀ x ∈ effects, (match x.1 with | .runtime _ => false | _ => true) = true := by decide
  have := this x hx
  rw [e] at this
  cases this

/-- At the beginning of a line. -/
def atLine (o : List Open) : Scan := ⟨.start, false, o⟩

theorem run_call (rt : Runtime) {tpl : Tpl} {kinds : List HoleKind} {before after : List Open} {args : List Bytes}
    (he : (tpl, kinds, before, after) ∈ effects) (hf : FitAll kinds args) (o : List Open) :
    (atLine (before ++ o)).run (Call.text rt ⟨tpl, args⟩) = some (atLine (after ++ o)) := by
  rw [Call.text, text_noRuntime rt (effects_not_runtime _ he)]
  exact Scan.run_under o (run_print hf (effects_right _ he))

/-! ### Names, numbers and types -/

/-- The characters of names, numbers and types. -/
def wordChar (c : Byte) : Bool :=
  (65 ≤ c && c ≤ 90) || (97 ≤ c && c ≤ 122) || (48 ≤ c && c ≤ 57) || c = 95 || c = c!":" || c = c!"<" || c = c!">" ||
    c = c!"." || c = 32

/-- A name, a number or a type. -/
def Wordy (a : Bytes) : Prop := (∀ c ∈ a, wordChar c = true) ∧ ∃ c ∈ a, c ≠ 32

theorem code_word (s : Scan) {c : Byte} (h : wordChar c = true) : s.code c = some { s with spot := .code } := by
  have hne : ∀ d ∈ b!"\n\"'/\\([{)]}", c ≠ d := by
    rintro d hd rfl
    have key : ∀ d ∈ b!"\n\"'/\\([{)]}", wordChar d = false := by decide
    rw [key _ hd] at h
    cases h
  unfold Scan.code
  dsimp only
  rw [if_neg (hne 10 (by decide)), if_neg (hne c!"\"" (by decide)), if_neg (hne c!"'" (by decide)), if_neg (hne c!"/" (by decide)),
    if_neg (hne c!"\\" (by decide)), if_neg (hne c!"(" (by decide)), if_neg (hne c!"[" (by decide)), if_neg (hne c!"{" (by decide)),
    if_neg (hne c!")" (by decide)), if_neg (hne c!"]" (by decide)), if_neg (hne c!"}" (by decide))]

theorem run_words {a : Bytes} (h : ∀ c ∈ a, wordChar c = true) (d : Bool) (o : List Open) :
    Scan.run ⟨.code, d, o⟩ a = some ⟨.code, d, o⟩ ∧ Scan.run ⟨.line, d, o⟩ a = some ⟨.line, d, o⟩ ∧
    Scan.run ⟨.str, d, o⟩ a = some ⟨.str, d, o⟩ := by
  induction a with
  | nil => exact ⟨rfl, rfl, rfl⟩
  | cons c a ih =>
    have hc := h c List.mem_cons_self
    obtain ⟨h1, h2, h3⟩ := ih fun c hc => h c (List.mem_cons_of_mem _ hc)
    have n1 : c ≠ 10 := by rintro rfl; revert hc; decide
    have n2 : c ≠ c!"\"" := by rintro rfl; revert hc; decide
    have n3 : c ≠ c!"\\" := by rintro rfl; revert hc; decide
    refine ⟨?_, ?_, ?_⟩
    · rw [Scan.run, Scan.step, code_word _ hc]; exact h1
    · rw [Scan.run, Scan.step]; dsimp only; rw [if_neg n1, if_neg n3]; exact h2
    · rw [Scan.run, Scan.step]; dsimp only; rw [if_neg n1, if_neg n2, if_neg n3]; exact h3

theorem run_words_start {a : Bytes} (h : Wordy a) (d : Bool) (o : List Open) :
    Scan.run ⟨.start, d, o⟩ a = some ⟨.code, d, o⟩ := by
  obtain ⟨h, b, hb, hne⟩ := h
  induction a with
  | nil => cases hb
  | cons c a ih =>
    have hc := h c List.mem_cons_self
    have ht : ∀ c ∈ a, wordChar c = true := fun c hc => h c (List.mem_cons_of_mem _ hc)
    by_cases h32 : c = 32
    · subst h32
      rw [Scan.run, Scan.step]
      exact ih ht (by rcases List.mem_cons.mp hb with rfl | hb; exact absurd rfl hne; exact hb)
    · have n1 : c ≠ 9 := by rintro rfl; revert hc; decide
      have n2 : c ≠ c!"#" := by rintro rfl; revert hc; decide
      rw [Scan.run, Scan.step]
      dsimp only
      rw [if_neg (by rintro (e | e); exact h32 e; exact n1 e), if_neg n2, code_word _ hc]
      exact (run_words ht d o).1

theorem Wordy.fits {a : Bytes} (h : Wordy a) : HoleKind.Fits .word a := by
  rintro ⟨sp, d, o⟩ t ht
  cases sp <;> first | cases ht | skip
  · exact run_words_start h d o
  · exact (run_words h.1 d o).1
  · exact (run_words h.1 d o).2.1
  · exact (run_words h.1 d o).2.2

theorem Wordy.append {a b : Bytes} (ha : ∀ c ∈ a, wordChar c = true) (hb : Wordy b) : Wordy (a ++ b) :=
  ⟨fun c hc => (List.mem_append.mp hc).elim (ha c) (hb.1 c), by
    obtain ⟨c, hc, hn⟩ := hb.2
    exact ⟨c, List.mem_append_right _ hc, hn⟩⟩

theorem Wordy.append' {a b : Bytes} (ha : Wordy a) (hb : ∀ c ∈ b, wordChar c = true) : Wordy (a ++ b) :=
  ⟨fun c hc => (List.mem_append.mp hc).elim (ha.1 c) (hb c), by
    obtain ⟨c, hc, hn⟩ := ha.2
    exact ⟨c, List.mem_append_left _ hc, hn⟩⟩

theorem CIdent.wordy {a : Bytes} (h : CIdent a) : Wordy a := by
  obtain ⟨b, r, rfl, hb, hr⟩ := h
  have hb' : wordChar b = true := by
    unfold wordChar
    rcases hb with h | h | h <;> simp [h]
  refine ⟨fun c hc => ?_, b, List.mem_cons_self, ?_⟩
  · rcases List.mem_cons.mp hc with rfl | hc
    · exact hb'
    · unfold wordChar
      rcases hr c hc with h | h | h | h <;> simp [h]
  · rintro rfl
    revert hb; decide

theorem decNat_wordy (n : Nat) : Wordy (decNat n) := by
  have hd := decNat_digits' n
  refine ⟨fun c hc => ?_, ?_⟩
  · unfold wordChar
    simp [hd c hc]
  · obtain ⟨c, hc⟩ := List.exists_mem_of_ne_nil _ (decNat_ne_nil n)
    exact ⟨c, hc, by rintro rfl; have := hd _ hc; revert this; decide⟩

theorem className_wordy {m : Message} (hn : CIdent m.name) (hp : ∀ n ∈ namespaces m.package, CIdent n) : Wordy (className m) := by
  unfold className
  refine Wordy.append (fun c hc => ?_) hn.wordy
  simp only [List.mem_append, List.mem_flatMap] at hc
  rcases hc with (hc | ⟨n, hn, hc⟩) | hc
  · revert c; decide
  · rcases hc with hc | hc
    · revert c; decide
    · exact (hp n hn).wordy.1 c hc
  · revert c; decide

theorem scalar_wordy : ∀ s : Proto.Scalar, Wordy (readmeType s) ∧ Wordy (elementType s) := by
  intro s
  cases s <;> exact ⟨⟨by decide, by decide⟩, ⟨by decide, by decide⟩⟩

theorem cppType_wordy {useLists : Bool} {f : Field} {target : Option Message} (ht : f.type.id = .message → ∃ m, target = some m ∧
    Wordy (className m)) : Wordy (cppType useLists f target) := by
  have hc : ∀ e, Wordy e → Wordy ((if useLists then b!"std::list<" else b!"std::vector<") ++ e ++ b!">") := by
    intro e he
    refine Wordy.append' (Wordy.append ?_ he) (by decide)
    cases useLists <;> decide
  unfold cppType
  cases hid : f.type.id with
  | message =>
    obtain ⟨m, rfl, hw⟩ := ht hid
    simp only [Option.map_some, Option.getD_some]
    split
    · exact hc _ hw
    · exact hw
  | scalar s =>
    have := scalar_wordy s
    cases s <;> dsimp only <;> first
      | exact (scalar_wordy .bytes).1
      | (split
         · exact hc _ this.2
         · exact this.1)

theorem guard_wordy (fileName : Bytes) : Wordy (makeGuard fileName) := (C39_guard_is_identifier fileName).wordy

/-! ### Labels -/

theorem run_str_closed {a : Bytes} (h : Closed a = true) (d : Bool) (o : List Open) :
    Scan.run ⟨.str, d, o⟩ a = some ⟨.str, d, o⟩ := by
  match a with
  | [] => rfl
  | [c] =>
    simp only [Closed, Bool.and_eq_true, decide_eq_true_eq] at h
    rw [Scan.run, Scan.step]; dsimp only; rw [if_neg h.1.2, if_neg h.1.1, if_neg h.2]; rfl
  | c :: e :: rest =>
    rw [Closed] at h
    split at h
    · rename_i hc
      subst hc
      have := run_str_closed h d o
      exact this
    · rename_i hc
      simp only [Bool.and_eq_true, decide_eq_true_eq] at h
      have := run_str_closed h.2 d o
      rw [Scan.run, Scan.step]; dsimp only; rw [if_neg h.1.2, if_neg h.1.1, if_neg hc]
      exact this

theorem run_str_open {a : Bytes} (hq : c!"\"" ∉ a) (h : Closed a = false) (d : Bool) (o : List Open) :
    Scan.run ⟨.str, d, o⟩ a = none ∨ Scan.run ⟨.str, d, o⟩ a = some ⟨.strEscape, d, o⟩ := by
  match a with
  | [] => cases h
  | [c] =>
    have hc : c ≠ c!"\"" := fun e => hq (e ▸ List.mem_cons_self)
    rw [Scan.run, Scan.step]; dsimp only
    by_cases h10 : c = 10
    · rw [if_pos h10]; exact Or.inl rfl
    · by_cases hb : c = c!"\\"
      · rw [if_neg h10, if_neg hc, if_pos hb]; exact Or.inr rfl
      · simp [Closed, hc, h10, hb] at h
  | c :: e :: rest =>
    have hc : c ≠ c!"\"" := fun e => hq (e ▸ List.mem_cons_self)
    have ht : c!"\"" ∉ e :: rest := fun h => hq (List.mem_cons_of_mem _ h)
    rw [Closed] at h
    split at h
    · rename_i hc
      subst hc
      have := run_str_open (fun h => ht (List.mem_cons_of_mem _ h)) h d o
      exact this
    · rename_i hb
      rw [Scan.run, Scan.step]; dsimp only
      by_cases h10 : c = 10
      · rw [if_pos h10]; exact Or.inl rfl
      · rw [if_neg h10, if_neg hc, if_neg hb]
        simp only [hc, h10, ne_eq, not_false_eq_true, decide_true, Bool.true_and] at h
        exact run_str_open ht h d o

theorem Closed.key {a : Bytes} (h : Closed a = true) : HoleKind.Fits .key a := by
  rintro ⟨sp, d, o⟩ t ht
  cases sp <;> first | cases ht | skip
  exact run_str_closed h d o

theorem Closed.label {ctx : Ctx} {name : Bytes} (h : Closed (keyText ctx name) = true) :
    HoleKind.Fits .label (labelText ctx name) := by
  rintro ⟨sp, d, o⟩ t ht
  cases sp <;> first | cases ht | skip
  unfold labelText
  unfold keyText at h
  split
  · rename_i ho
    rw [if_pos ho] at h
    exact Scan.run_some (Scan.run_some (u := ⟨.str, d, .round :: o⟩) rfl (run_str_closed h _ _)) rfl
  · rename_i ho
    rw [if_neg ho] at h
    exact Scan.run_some (Scan.run_some (u := ⟨.str, d, o⟩) rfl (run_str_closed h _ _)) rfl

theorem closed_plain {a : Bytes} (h : ∀ c ∈ a, c ≠ c!"\"" ∧ c ≠ 10 ∧ c ≠ c!"\\") : Closed a = true := by
  match a with
  | [] => rfl
  | [c] => simpa [Closed, and_assoc] using h c List.mem_cons_self
  | c :: e :: rest =>
    have hc := h c List.mem_cons_self
    rw [Closed, if_neg hc.2.2, closed_plain fun c hc => h c (List.mem_cons_of_mem _ hc)]
    simp [hc.1, hc.2.1]

/-- Obfuscated names are escape sequences only. -/
theorem closed_obfuscated (name : Bytes) : Closed (obfuscateText name) = true := by
  unfold obfuscateText
  generalize obfMask name.length = k
  induction name with
  | nil => rfl
  | cons c name ih =>
    rw [List.flatMap_cons]
    have hx : ∀ n < 256, hexText n = [hexDigit n] ∨ ∃ a b, a < 16 ∧ b < 16 ∧ hexText n = [hexDigit a, hexDigit b] := by
      intro n hn
      unfold hexText
      split
      · exact Or.inl rfl
      · exact Or.inr ⟨n / 16, n % 16, by omega, by omega, rfl⟩
    have hd : ∀ n < 16, hexDigit n ≠ c!"\"" ∧ hexDigit n ≠ 10 ∧ hexDigit n ≠ c!"\\" := by decide
    have cons : ∀ (e : Byte) (l : Bytes), e ≠ c!"\"" ∧ e ≠ 10 ∧ e ≠ c!"\\" → Closed l = true → Closed (e :: l) = true := by
      intro e l he hl
      cases l with
      | nil => simp [Closed, he]
      | cons f l => rw [Closed, if_neg he.2.2, hl]; simp [he]
    have hk : ∀ l, Closed (b!"\\x" ++ l) = Closed l := fun l => by
      show Closed (c!"\\" :: c!"x" :: l) = _
      rw [Closed, if_pos rfl]
    rw [List.append_assoc, hk]
    by_cases hlt : (c ^^^ k).toNat < 16
    · unfold hexText
      rw [if_pos hlt]
      exact cons _ _ (hd _ hlt) ih
    · unfold hexText
      rw [if_neg hlt]
      have := UInt8.toNat_lt (c ^^^ k)
      exact cons _ _ (hd _ (by omega)) (cons _ _ (hd _ (by omega)) ih)

end PG.Gen
