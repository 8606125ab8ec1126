import Verif.Spec.Report
import Verif.Proofs.ProtoPlace
/-
The line recorded for an option is the one where its declaration begins.
-/
set_option autoImplicit false
namespace PG.Proto

/-- The lexical elements `ls` were read; `z` comes next. -/
def Ahead (text : Bytes) (s : In) (ls : List Lexeme) (z : Bytes) : Prop := Reads text ls z ∧ Tracks text s ∧ Sees s z

/-- The token is the lexical element `l`, which follows `q` in the text; `r` comes next. -/
structure Cur (text : Bytes) (t : Tok) (s : In) (ls : List Lexeme) (q : Bytes) (l : Lexeme) (r : Bytes) : Prop where
  split : text = q ++ (l.text ++ r)
  before : Before ls q (l.text ++ r)
  valid : l.Valid
  ends : l.Ends r
  tok : (t.code, t.value) = l.tok
  line : t.line = lineAt q
  ahead : Ahead text s (ls ++ [l]) r

theorem lex_step {text : Bytes} {N : Nat} {s s' : In} {ls : List Lexeme} {z : Bytes} {t : Tok} (h : Ahead text s ls z)
    (hl : lex N s = .ok (t, s')) (he : t.code ≠ .eof) :
    ∃ g l r, LooseGap g ∧ z = g ++ (l.text ++ r) ∧ ∃ q, Cur text t s' ls q l r := by
  obtain ⟨hr, ht, hs⟩ := h
  obtain ⟨p, hp, -⟩ := reads_before (g := []) .nil hr
  rw [List.nil_append] at hp
  have hsp := lex_spec N s z hs
  have hpl := lexLoop_placed (text := text) N N s p z hp ht hs
  rw [show lexLoop N N s = lex N s from rfl, hl] at hpl
  cases ha : alex z with
  | tok c v r =>
    rw [ha] at hsp
    rcases hsp with ⟨t', s'', k1, k2, k3, k4⟩ | ⟨k, _⟩
    case inr => rw [hl] at k; cases k
    rw [hl] at k1
    injection k1 with k1
    injection k1 with e1 e2
    subst e1 e2
    rcases alex_seen _ z (Nat.le_refl _) c v r ha with ⟨h, _⟩ | ⟨l, h1, g, g1, g2, g3, g4⟩
    · rw [k2] at he; exact absurd h he
    · have hz : z = g ++ (l.text ++ r) := by rw [g2]; simp
      refine ⟨g, l, r, g1, hz, p ++ g, ?_⟩
      have hst : Starts (l.text ++ r) := lexeme_starts g3 r
      have hline : t.line = lineAt (p ++ g) := by
        obtain ⟨-, hpl⟩ := hpl
        rcases hpl with ⟨g', bs1, b1, b2, b3, b4⟩ | ⟨b1, b2, b3, b4⟩
        · have hg : g' = g := gap_unique b1 g1 b3 hst (by rw [← b2, ← hz])
          rcases b4 with b4 | ⟨b4, -⟩
          · rw [b4.2.1, hg]
          · rw [b4] at he; exact absurd rfl he
        · exact absurd b2 he
      obtain ⟨p', hp', hbef⟩ := reads_before (g := g) (tail := l.text ++ r) g1 (by rw [← hz]; exact hr)
      have hpp : p' = p := by
        have : p ++ z = p' ++ z := by rw [← hp, hp', ← hz]
        exact (List.append_cancel_right this).symm
      subst hpp
      refine ⟨by rw [hp, hz]; simp, hbef, g3, g4, by rw [k2, k3]; exact h1, hline, ?_, hpl.1, k4⟩
      exact hr.snoc ⟨g, g1, g2, g3, g4⟩
  | exc k =>
    rw [ha] at hsp
    rcases hsp with ⟨e, k1, _⟩ | ⟨k, _⟩
    · rw [hl] at k1; cases k1
    · rw [hl] at k; cases k
  | hang =>
    rw [ha] at hsp
    have : lex N s = .fuel := hsp
    rw [hl] at this; cases this

/-! ### The parser -/

open Gen (SetAt)

/-- The current token was read and is about to be looked at; unless it is the end of the file, it has a place. -/
def HeldAt (text : Bytes) (tk : Tk In) : Prop :=
  tk.ungot = false ∧ (tk.cur.code ≠ .eof → ∃ ls q l r, Cur text tk.cur tk.src ls q l r)

/-- The current token will be read again. -/
def PutAt (text : Bytes) (tk : Tk In) : Prop :=
  tk.ungot = true ∧ (tk.cur.code ≠ .eof → ∃ ls q l r, Cur text tk.cur tk.src ls q l r)

/-- A token can be read. -/
def CanRead (text : Bytes) (tk : Tk In) : Prop := (tk.ungot = false ∧ ∃ ls z, Ahead text tk.src ls z) ∨ PutAt text tk

theorem HeldAt.ready {text : Bytes} {tk : Tk In} (h : HeldAt text tk) (hc : tk.cur.code ≠ .eof) : CanRead text tk := by
  obtain ⟨ls, q, l, r, k⟩ := h.2 hc
  exact Or.inl ⟨h.1, _, _, k.ahead⟩

section
variable {text : Bytes} {N : Nat}

theorem n_next {tk : Tk In} (h : CanRead text tk) : Okay (HeldAt text) (tk.next (lex N)) := by
  unfold Tk.next
  rcases h with ⟨h, ls, z, k⟩ | h
  · rw [h]
    simp only [Bool.false_eq_true, if_false]
    refine Okay.bind (P := fun x => lex N tk.src = .ok x) (fun a ha => ha) fun x hx => Okay.ok ⟨rfl, fun hc => ?_⟩
    obtain ⟨g, l, r, -, -, q, c⟩ := lex_step k (t := x.1) (s' := x.2) hx hc
    exact ⟨ls, q, l, r, c⟩
  · rw [h.1]
    exact Okay.ok ⟨rfl, h.2⟩

theorem n_unget {tk : Tk In} (h : HeldAt text tk) : Okay (PutAt text) tk.unget := by
  unfold Tk.unget
  rw [h.1]
  exact Okay.ok ⟨rfl, h.2⟩

/-- The token after the current one. -/
theorem n_after {tk : Tk In} {ls : List Lexeme} {q r : Bytes} {l : Lexeme} (hu : tk.ungot = false)
    (h : Cur text tk.cur tk.src ls q l r) :
    Okay (fun t => HeldAt text t ∧ (t.cur.code ≠ .eof → ∃ q' l' r', Cur text t.cur t.src (ls ++ [l]) q' l' r' ∧
      Got r ⟨t.cur, false, r'⟩)) (tk.next (lex N)) := by
  unfold Tk.next
  rw [hu]
  simp only [Bool.false_eq_true, if_false]
  refine Okay.bind (P := fun x => lex N tk.src = .ok x) (fun a ha => ha) fun x hx => ?_
  have key : ∀ hc : x.1.code ≠ .eof, ∃ q' l' r', Cur text x.1 x.2 (ls ++ [l]) q' l' r' ∧ Got r ⟨x.1, false, r'⟩ := by
    intro hc
    obtain ⟨g, l', r', g1, g2, q', c⟩ := lex_step h.ahead (t := x.1) (s' := x.2) hx hc
    refine ⟨q', l', r', c, rfl, Or.inr ⟨l', c.tok, g, g1, ?_, c.valid, c.ends⟩⟩
    rw [g2]; simp
  exact Okay.ok ⟨⟨rfl, fun hc => let ⟨q', l', r', c, _⟩ := key hc; ⟨_, q', l', r', c⟩⟩, key⟩

/-- What is read after the first lexical element of a declaration. -/
theorem set_at {tk : Tk In} {ls ds : List Lexeme} {q r z : Bytes} {l : Lexeme} (h : Cur text tk.cur tk.src ls q l r)
    (hr : Reads r ds z) : ∃ m, text = q ++ ((l.text ++ m) ++ z) ∧ Before ls q ((l.text ++ m) ++ z) ∧
      Before (l :: ds) (l.text ++ m) z := by
  obtain ⟨m, hm, hb⟩ := reads_before (g := []) .nil hr
  rw [List.nil_append] at hm
  rw [List.append_nil] at hb
  refine ⟨m, ?_, ?_, ?_⟩
  · rw [h.split, hm]; simp
  · rw [List.append_assoc, ← hm]; exact h.before
  · exact Before.lexeme (g := []) .nil h.valid (by rw [← hm]; exact h.ends) hb

theorem n_option {tk : Tk In} (h : (HeldAt text tk ∧ tk.cur.code = .option) ∨ PutAt text tk) :
    Okay (fun r => SetAt text r.1 ∧ HeldAt text r.2 ∧ r.2.cur.code ≠ .eof) (parseOption (lex N) tk) := by
  unfold parseOption
  dsimp only
  -- the first lexical element, and the name
  refine Okay.bind (P := fun a => HeldAt text a ∧ (a.cur.code = .name ∨ a.cur.code = .qname → ∃ ls q l r,
      Cur text a.cur a.src ls q l r ∧ DotName a.cur.value ∧ a.cur.value ∉ reserved ∧
      ∀ (ds : List Lexeme) (z : Bytes), Reads r ds z → ∃ ls pre mid, text = pre ++ (mid ++ z) ∧
        Before ls pre (mid ++ z) ∧ tk.cur.line = lineAt pre ∧
        ((Before (.word b!"option" :: .word a.cur.value :: ds) mid z ∧ ∃ m, mid = b!"option" ++ m) ∨
          (Before (.word a.cur.value :: ds) mid z ∧ ∃ m, mid = a.cur.value ++ m)))) ?_ fun a ⟨ha, ha'⟩ => ?_
  · rcases h with ⟨h, hc⟩ | h
    · obtain ⟨ls, q, l, r, c⟩ := h.2 (by rw [hc]; decide)
      have hl := (tok_keyword c.valid c.tok).2.2.2.1 hc
      subst hl
      refine (n_after h.1 c).mono fun a ⟨a1, a2⟩ => ⟨a1, fun hn => ?_⟩
      obtain ⟨q', l', r', c', g'⟩ := a2 (by rcases hn with e | e <;> rw [e] <;> decide)
      obtain ⟨g1, g2, g3⟩ := got_name g' hn
      refine ⟨_, q', l', r', c', g2, g3, fun ds z hr => ?_⟩
      obtain ⟨m, m1, m2, m3⟩ := set_at c (.cons g1 hr)
      exact ⟨ls, q, _, m1, m2, c.line, Or.inl ⟨m3, m, rfl⟩⟩
    · unfold Tk.next
      rw [h.1]
      refine Okay.ok ⟨⟨rfl, h.2⟩, fun hn => ?_⟩
      obtain ⟨ls, q, l, r, c⟩ := h.2 (by rcases hn with e | e <;> simp only at e <;> rw [e] <;> decide)
      obtain ⟨hl, g2, g3⟩ := tok_name c.valid c.tok hn
      subst hl
      refine ⟨ls, q, _, r, c, g2, g3, fun ds z hr => ?_⟩
      obtain ⟨m, m1, m2, m3⟩ := set_at c hr
      exact ⟨ls, q, _, m1, m2, c.line, Or.inr ⟨m3, m, rfl⟩⟩
  split
  · exact Okay.fail
  rename_i hn
  have hn : a.cur.code = .name ∨ a.cur.code = .qname := by
    rcases Decidable.em (a.cur.code = .name) with e | e
    · exact Or.inl e
    · exact Or.inr (Decidable.not_not.mp fun e2 => hn ⟨e, e2⟩)
  obtain ⟨ls, q, l, r, c, hd, hres, hfin⟩ := ha' hn
  refine Okay.bind (n_after ha.1 c) fun b ⟨hb, hb'⟩ => ?_
  split
  · exact Okay.fail
  rename_i he
  have he := Decidable.not_not.mp he
  obtain ⟨q1, l1, r1, c1, g1⟩ := hb' (by rw [he]; decide)
  have e1 := got_equal g1 he
  refine Okay.bind (n_after hb.1 c1) fun d ⟨hd', hd''⟩ => ?_
  split
  · exact Okay.fail
  rename_i ty hty
  have hne : d.cur.code ≠ .eof := by intro e; rw [e] at hty; cases hty
  obtain ⟨q2, l2, r2, c2, g2⟩ := hd'' hne
  obtain ⟨v, v1, v2, v3, v4⟩ := got_value g2 hty
  obtain ⟨ls', pre, mid, k1, k2, k3, k4⟩ := hfin _ _ (.cons e1 (.one v4))
  refine Okay.ok ⟨⟨⟨a.cur.value, v⟩, ls', pre, mid, _, ⟨hd, hres, v1⟩, rfl, v2.symm, v3.symm, k1, k2, k3, k4⟩, hd', hne⟩

/-- All options of the map were set where they say. -/
def Lined (text : Bytes) (m : OptMap) : Prop := ∀ n o, m.find n = some o → o.name = n ∧ SetAt text o

theorem Lined.nil : Lined text [] := fun n o h => by cases h

theorem find_set (m : OptMap) (k : Bytes) (e : OptEntry) (n : Bytes) :
    (m.set k e).find n = if k = n then some e else m.find n := by
  induction m with
  | nil => simp [OptMap.set, OptMap.find]
  | cons x rest ih =>
    obtain ⟨k', v'⟩ := x
    simp only [OptMap.set, OptMap.find]
    by_cases h : k' = k
    · subst h
      simp only [if_true, OptMap.find]
      by_cases h2 : k' = n <;> simp [h2]
    · simp only [if_neg h, OptMap.find, ih]
      by_cases h2 : k' = n
      · subst h2; simp [Ne.symm h]
      · simp [h2]

theorem Lined.set {m : OptMap} (h : Lined text m) {o : OptEntry} (ho : SetAt text o) : Lined text (m.set o.name o) := by
  intro n e he
  rw [find_set] at he
  split at he
  · rename_i hk
    injection he with he; subst he
    exact ⟨hk, ho⟩
  · exact h n e he

theorem n_fieldOptions : ∀ (n : Nat) (m : OptMap) (tk : Tk In), CanRead text tk → Lined text m →
    Okay (fun r => Lined text r.1 ∧ PutAt text r.2) (parseFieldOptions (lex N) n m tk)
  | 0, _, _, _, _ => Okay.fuel
  | n + 1, m, tk, h, hm => by
    rw [parseFieldOptions]
    refine Okay.bind (n_next h) fun a ha => ?_
    split
    · exact Okay.bind (n_unget ha) fun b hb => Okay.ok ⟨hm, hb⟩
    · refine Okay.bind (n_unget ha) fun b hb => ?_
      refine Okay.bind (n_option (Or.inr hb)) fun c ⟨c1, c2, c3⟩ => ?_
      dsimp only
      refine Okay.bind (n_next (c2.ready c3)) fun d hd => ?_
      refine Okay.bind (P := CanRead text) ?_ fun e he => n_fieldOptions n _ e he (hm.set c1)
      split
      · exact (n_unget hd).mono fun _ h => Or.inr h
      · rename_i hc
        exact Okay.ok (hd.ready (by rw [Decidable.not_not.mp hc]; decide))

theorem n_standardOption {m : OptMap} {tk : Tk In} (h : HeldAt text tk) (hc : tk.cur.code = .option) (hm : Lined text m) :
    Okay (fun r => Lined text r.1 ∧ HeldAt text r.2 ∧ r.2.cur.code ≠ .eof) (parseStandardOption (lex N) m tk) := by
  unfold parseStandardOption
  refine Okay.bind (n_option (Or.inl ⟨h, hc⟩)) fun c ⟨c1, c2, c3⟩ => ?_
  dsimp only
  refine Okay.bind (n_next (c2.ready c3)) fun d hd => ?_
  split
  · exact Okay.fail
  · rename_i he
    exact Okay.ok ⟨hm.set c1, hd, by rw [Decidable.not_not.mp he]; decide⟩

theorem n_brackets {tk : Tk In} {M : Nat} (h : HeldAt text tk) :
    Okay (fun r => Lined text r.1 ∧ HeldAt text r.2) (parseBrackets (lex N) M tk) := by
  unfold parseBrackets
  split
  · rename_i hc
    refine Okay.bind (n_fieldOptions M [] tk (h.ready (by rw [hc]; decide)) .nil) fun r ⟨r1, r2⟩ => ?_
    dsimp only
    refine Okay.bind (n_next (Or.inr r2)) fun a ha => ?_
    split
    · exact Okay.fail
    rename_i hc2
    exact Okay.bind (n_next (ha.ready (by rw [Decidable.not_not.mp hc2]; decide))) fun b hb => Okay.ok ⟨r1, hb⟩
  · exact Okay.ok ⟨.nil, h⟩

theorem n_label {tk : Tk In} (h : HeldAt text tk) : Okay (fun r => HeldAt text r.2) (parseLabel (lex N) tk) := by
  unfold parseLabel
  split
  · rename_i hc
    exact Okay.bind (n_next (h.ready (by rw [hc]; decide))) fun a ha => Okay.ok ha
  · split
    · rename_i hc
      exact Okay.bind (n_next (h.ready (by rw [hc]; decide))) fun a ha => Okay.ok ha
    · exact Okay.ok h

theorem n_type {tk : Tk In} {msgs : List Message} {p : Bytes} {x y : Bool} :
    Okay (fun _ => tk.cur.code ≠ .eof) (parseType msgs p x y tk) := by
  unfold parseType
  split
  · rename_i t hc
    exact Okay.ok (by rw [hc]; simp)
  · dsimp only
    split
    · rename_i hc
      exact Okay.ok (by rcases hc with e | e <;> rw [e] <;> decide)
    · exact Okay.fail

/-- All options of the message and of its fields. -/
def LinedMsg (text : Bytes) (m : Message) : Prop := Lined text m.options ∧ ∀ f ∈ m.fields, Lined text f.options

theorem n_field {tk : Tk In} {M : Nat} {msgs : List Message} {m : Message} (h : HeldAt text tk) (hm : LinedMsg text m) :
    Okay (fun r => LinedMsg text r.1 ∧ HeldAt text r.2 ∧ r.2.cur.code ≠ .eof) (parseField (lex N) M msgs m tk) := by
  unfold parseField
  refine Okay.bind (n_label h) fun a ha => ?_
  obtain ⟨⟨rp, op⟩, tk1⟩ := a
  dsimp only at ha ⊢
  refine Okay.bind n_type fun ti hti => ?_
  refine Okay.bind (n_next (ha.ready hti)) fun b hb => ?_
  split
  · exact Okay.fail
  rename_i hname
  refine Okay.bind (n_next (hb.ready (by intro e; rw [e] at hname; exact hname rfl))) fun c hc => ?_
  split
  · exact Okay.fail
  rename_i hc1
  refine Okay.bind (n_next (hc.ready (by rw [Decidable.not_not.mp hc1]; decide))) fun d hd => ?_
  split
  · exact Okay.fail
  rename_i hd1
  split
  · exact Okay.fail
  refine Okay.bind (n_next (hd.ready (by rw [Decidable.not_not.mp hd1]; decide))) fun e he => ?_
  refine Okay.bind (n_brackets he) fun r ⟨r1, r2⟩ => ?_
  split
  · exact Okay.fail
  rename_i hsc
  split
  · exact Okay.fail
  refine Okay.ok ⟨⟨hm.1, ?_⟩, r2, by rw [Decidable.not_not.mp hsc]; decide⟩
  intro f hf
  rcases List.mem_append.mp hf with hf | hf
  · exact hm.2 f hf
  · rw [List.mem_singleton] at hf; subst hf; exact r1

theorem n_body {M : Nat} {msgs : List Message} : ∀ (n : Nat) (m : Message) (tk : Tk In), CanRead text tk → LinedMsg text m →
    Okay (fun r => LinedMsg text r.1 ∧ HeldAt text r.2) (parseBody (lex N) M msgs n m tk)
  | 0, _, _, _, _ => Okay.fuel
  | n + 1, m, tk, h, hm => by
    rw [parseBody]
    refine Okay.bind (n_next h) fun a ha => ?_
    split
    · exact Okay.ok ⟨hm, ha⟩
    split
    · exact Okay.ok ⟨hm, ha⟩
    split
    · rename_i hc
      refine Okay.bind (n_standardOption ha hc hm.1) fun r ⟨r1, r2, r3⟩ => ?_
      exact n_body n _ r.2 (r2.ready r3) ⟨r1, hm.2⟩
    · refine Okay.bind (n_field ha hm) fun r ⟨r1, r2, r3⟩ => ?_
      exact n_body n _ r.2 (r2.ready r3) r1

/-- All options of the schema. -/
def LinedTree (text : Bytes) (t : Tree) : Prop := Lined text t.options ∧ ∀ m ∈ t.messages, LinedMsg text m

theorem n_message {M : Nat} {t : Tree} {tk : Tk In} (h : HeldAt text tk) (ht : LinedTree text t) :
    Okay (fun r => LinedTree text r.1 ∧ HeldAt text r.2) (parseMessage (lex N) M t tk) := by
  unfold parseMessage
  split
  · rename_i hc
    refine Okay.bind (n_next (h.ready (by rw [hc]; decide))) fun a ha => ?_
    split
    · rename_i hn
      refine Okay.bind (n_next (ha.ready (by intro e; rw [e] at hn; revert hn; decide))) fun b hb => ?_
      split
      · exact Okay.fail
      rename_i hc2
      refine Okay.bind (n_body M _ b (hb.ready (by rw [Decidable.not_not.mp hc2]; decide)) ⟨.nil, by simp⟩) fun r ⟨r1, r2⟩ => ?_
      refine Okay.ok ⟨⟨ht.1, fun m hm => ?_⟩, r2⟩
      rcases List.mem_append.mp hm with hm | hm
      · exact ht.2 m hm
      · rw [List.mem_singleton] at hm; subst hm; exact r1
    · exact Okay.fail
  · exact Okay.fail

theorem n_package {t : Tree} {tk : Tk In} (h : HeldAt text tk) (hc : tk.cur.code ≠ .eof) (ht : LinedTree text t) :
    Okay (fun r => LinedTree text r.1 ∧ HeldAt text r.2) (parsePackage (lex N) t tk) := by
  unfold parsePackage
  refine Okay.bind (n_next (h.ready hc)) fun a ha => ?_
  split
  · rename_i hn
    refine Okay.bind (n_next (ha.ready (by rcases hn with e | e <;> rw [e] <;> decide))) fun b hb => ?_
    split
    · exact Okay.ok ⟨ht, hb⟩
    · exact Okay.fail
  · exact Okay.fail

theorem n_syntax {tk : Tk In} (h : HeldAt text tk) (hc : tk.cur.code ≠ .eof) :
    Okay (HeldAt text) (parseSyntax (lex N) tk) := by
  unfold parseSyntax
  refine Okay.bind (n_next (h.ready hc)) fun a ha => ?_
  split
  · exact Okay.fail
  rename_i h1
  refine Okay.bind (n_next (ha.ready (by rw [Decidable.not_not.mp h1]; decide))) fun b hb => ?_
  split
  · rename_i h2
    refine Okay.bind (n_next (hb.ready (by rw [h2]; decide))) fun c hc => ?_
    split
    · split
      · exact Okay.fail
      · exact Okay.ok hc
    · exact Okay.fail
  · exact Okay.fail

theorem n_item {M : Nat} {t : Tree} {tk : Tk In} (h : HeldAt text tk) (hc : tk.cur.code ≠ .eof) (ht : LinedTree text t) :
    Okay (fun r => LinedTree text r.1 ∧ HeldAt text r.2) (parseItem (lex N) M t tk) := by
  unfold parseItem
  split
  · exact n_message h ht
  split
  · exact n_package h hc ht
  split
  · exact Okay.bind (n_syntax h hc) fun a ha => Okay.ok ⟨ht, ha⟩
  split
  · rename_i ho
    exact Okay.bind (n_standardOption h ho ht.1) fun r ⟨r1, r2, _⟩ => Okay.ok ⟨⟨r1, ht.2⟩, r2⟩
  · exact Okay.fail

theorem n_proto {M : Nat} : ∀ (n : Nat) (t : Tree) (tk : Tk In), CanRead text tk → LinedTree text t →
    Okay (LinedTree text) (parseProto (lex N) M n t tk)
  | 0, _, _, _, _ => Okay.fuel
  | n + 1, t, tk, h, ht => by
    rw [parseProto]
    refine Okay.bind (n_next h) fun a ha => ?_
    split
    · exact Okay.ok ht
    rename_i hc
    refine Okay.bind (n_item ha hc ht) fun r ⟨r1, r2⟩ => ?_
    dsimp only
    split
    · exact Okay.ok r1
    · rename_i hc2
      exact n_proto n _ _ (r2.ready hc2) r1

theorem n_resolveFields (msgs : List Message) : ∀ fs : List Field, (∀ f ∈ fs, Lined text f.options) →
    Okay (fun gs => ∀ f ∈ gs, Lined text f.options) (resolveFields msgs fs)
  | [], _ => Okay.ok (by simp)
  | f :: rest, h => by
    have hr := n_resolveFields msgs rest fun g hg => h g (List.mem_cons_of_mem _ hg)
    have hf := h f List.mem_cons_self
    rw [resolveFields]
    split
    · refine Okay.bind hr fun gs hgs => Okay.ok fun g hg => ?_
      rcases List.mem_cons.mp hg with rfl | hg
      · exact hf
      · exact hgs g hg
    · split
      · intro b hb; cases hb
      · refine Okay.bind hr fun gs hgs => Okay.ok fun g hg => ?_
        rcases List.mem_cons.mp hg with rfl | hg
        · exact hf
        · exact hgs g hg

theorem n_resolveMessages (msgs : List Message) : ∀ ms : List Message, (∀ m ∈ ms, LinedMsg text m) →
    Okay (fun rs => ∀ m ∈ rs, LinedMsg text m) (resolveMessages msgs ms)
  | [], _ => Okay.ok (by simp)
  | m :: rest, h => by
    have hm := h m List.mem_cons_self
    rw [resolveMessages]
    refine Okay.bind (n_resolveFields msgs m.fields hm.2) fun fs hfs => ?_
    refine Okay.bind (n_resolveMessages msgs rest fun g hg => h g (List.mem_cons_of_mem _ hg)) fun rs hrs => ?_
    refine Okay.ok fun g hg => ?_
    rcases List.mem_cons.mp hg with rfl | hg
    · exact ⟨hm.1, hfs⟩
    · exact hrs g hg

/-- Every option of a parsed schema was set by a declaration that begins on the recorded line. -/
theorem parse_lined {t : Tree} (h : parse N text = .ok t) : LinedTree text t := by
  revert t
  show Okay (LinedTree text) (parse N text)
  unfold parse parseFrom
  refine Okay.bind (n_proto N _ _ (Or.inl ⟨rfl, [], text, .nil, ?_, ?_⟩) ⟨.nil, by simp [Tree.empty]⟩) fun t ht => ?_
  · exact tracks_open text
  · exact sees_open text
  refine Okay.bind (n_resolveMessages _ _ ht.2) fun ms hms => Okay.ok ⟨ht.1, hms⟩

end
end PG.Proto
