import Verif.Proofs.ProtoRead
import Verif.Spec.Position
/-
Positions of the tokens of a schema: the line and column the tokenizer records are those of the first character.
-/
set_option autoImplicit false
namespace PG.Proto

theorem lineAt_snoc (pre : Bytes) (b : Byte) : lineAt (pre ++ [b]) = lineAt pre + if b = 10 then 1 else 0 := by
  simp only [lineAt, List.count_append, List.count_cons, List.count_nil, beq_iff_eq]
  split <;> omega

theorem colAt_snoc (pre : Bytes) (b : Byte) : colAt (pre ++ [b]) = if b = 10 then 1 else colAt pre + 1 := by
  simp only [colAt, List.reverse_append, List.reverse_cons, List.reverse_nil, List.nil_append, List.singleton_append]
  by_cases h : b = 10
  · subst h
    rw [List.takeWhile_cons_of_neg (by decide)]
    simp
  · rw [List.takeWhile_cons_of_pos (by simpa using h), if_neg h]
    simp only [List.length_cons]
    omega

/-- The counters of the stream say where it is in `text`. -/
def Tracks (text : Bytes) (s : In) : Prop :=
  ∃ pre bs, text = pre ++ bs ∧ Sees s bs ∧
    ((s.ungot = false ∧ s.newline.line = lineAt pre ∧ s.newline.col + 1 = colAt pre) ∨
     (s.ungot = true ∧ s.line = lineAt pre ∧ s.col = colAt pre))

theorem tracks_open (text : Bytes) : Tracks text (In.open text) :=
  ⟨[], text, rfl, sees_open text, Or.inl ⟨rfl, rfl, rfl⟩⟩

theorem sees_unique {s : In} {a b : Bytes} (h : Sees s a) (h' : Sees s b) : a = b := by
  rcases h with ⟨h1, h2⟩ | ⟨h1, x, h2, h3⟩ <;> rcases h' with ⟨k1, k2⟩ | ⟨k1, y, k2, k3⟩
  · rw [← h2, k2]
  · rw [h1] at k1; cases k1
  · rw [h1] at k1; cases k1
  · rw [h3, k3, toNat_int_inj (h2.symm.trans k2)]

/-- After `get`. -/
theorem newline_of {s : In} {b : Byte} (h : s.last = (b.toNat : Int)) :
    s.newline.line = s.line + (if b = 10 then 1 else 0) ∧ s.newline.col = if b = 10 then 0 else s.col := by
  have e10 : (b.toNat : Int) = 10 ↔ b = 10 := toNat_eq_iff b 10 (by decide)
  unfold In.newline
  rw [h]
  by_cases hb : b = 10
  · rw [if_pos (e10.mpr hb), if_pos hb, if_pos hb]; exact ⟨rfl, rfl⟩
  · rw [if_neg (fun e => hb (e10.mp e)), if_neg hb, if_neg hb]; exact ⟨rfl, rfl⟩

theorem get_fresh {s : In} {b : Byte} {r : Bytes} (hu : s.ungot = false) (hr : s.rest = b :: r) :
    s.get.2 = { rest := r, last := b.toNat, line := s.newline.line, col := s.newline.col + 1, ungot := false } := by
  have e1 := newline_rest s
  have e2 := newline_ungot s
  unfold In.get
  rw [hu, if_neg (by simp)]
  cases hn : s.newline with
  | mk rest last line col ungot =>
    rw [hn] at e1 e2
    simp only at e1 e2
    subst e1 e2
    rw [hr, hu]

theorem get_end {s : In} (hu : s.ungot = false) (hr : s.rest = []) :
    s.get.2 = { rest := [], last := -2, line := s.newline.line, col := s.newline.col, ungot := false } := by
  have e1 := newline_rest s
  have e2 := newline_ungot s
  unfold In.get
  rw [hu, if_neg (by simp)]
  cases hn : s.newline with
  | mk rest last line col ungot =>
    rw [hn] at e1 e2
    simp only at e1 e2
    subst e1 e2
    rw [hr, hu]

theorem get_ungot {s : In} (hu : s.ungot = true) : s.get.2 = { s with ungot := false } := by
  unfold In.get; rw [hu, if_pos rfl]

theorem Tracks.get {text : Bytes} {s : In} (h : Tracks text s) :
    Tracks text s.get.2 ∧ ∀ s', s.get.2.unget = .ok s' → Tracks text s' := by
  obtain ⟨pre, bs, h1, h2, h3⟩ := h
  rcases h3 with ⟨hu, hl, hc⟩ | ⟨hu, hl, hc⟩
  · rcases h2 with ⟨_, hr⟩ | ⟨hu', _⟩
    case inr => rw [hu] at hu'; cases hu'
    cases bs with
    | nil =>
      rw [get_end hu hr]
      have key : Tracks text { rest := [], last := -2, line := s.newline.line, col := s.newline.col, ungot := false } :=
        ⟨pre, [], h1, Or.inl ⟨rfl, rfl⟩, Or.inl ⟨rfl, hl, hc⟩⟩
      refine ⟨key, ?_⟩
      intro s' hs
      simp only [In.unget] at hs
      injection hs with hs
      subst hs
      exact key
    | cons b r =>
      rw [get_fresh hu hr]
      refine ⟨⟨pre ++ [b], r, by simp [h1], Or.inl ⟨rfl, rfl⟩, Or.inl ⟨rfl, ?_, ?_⟩⟩, ?_⟩
      · rw [(newline_of (b := b) rfl).1, lineAt_snoc, hl]
      · rw [(newline_of (b := b) rfl).2, colAt_snoc]
        simp only
        split
        · rfl
        · omega
      · intro s' hs
        simp [In.unget] at hs
        subst hs
        exact ⟨pre, b :: r, h1, Or.inr ⟨rfl, b, rfl, rfl⟩, Or.inr ⟨rfl, hl, hc⟩⟩
  · rcases h2 with ⟨hu', _⟩ | ⟨_, b, hb, hbs⟩
    · rw [hu] at hu'; cases hu'
    rw [get_ungot hu]
    refine ⟨⟨pre ++ [b], s.rest, by simp [h1, hbs], Or.inl ⟨rfl, rfl⟩, Or.inl ⟨rfl, ?_, ?_⟩⟩, ?_⟩
    · rw [(newline_of (s := { s with ungot := false }) (b := b) hb).1, lineAt_snoc]
      simp only
      rw [hl]
    · rw [(newline_of (s := { s with ungot := false }) (b := b) hb).2, colAt_snoc]
      simp only
      split
      · rfl
      · omega
    · intro s' hs
      have h0 : s.last ≥ 0 := by rw [hb]; exact Int.natCast_nonneg _
      simp [In.unget, h0] at hs
      subst hs
      exact ⟨pre, b :: s.rest, by rw [h1, hbs], Or.inr ⟨rfl, b, hb, rfl⟩, Or.inr ⟨rfl, hl, hc⟩⟩

variable {text : Bytes}

theorem tracks_skipws : ∀ (n : Nat) (s s' : In), Tracks text s → In.skipws n s = .ok s' → Tracks text s'
  | 0, _, _, _, h => by cases h
  | n + 1, s, s', ht, h => by
    rw [In.skipws] at h
    split at h
    · exact tracks_skipws n _ _ ht.get.1 h
    · exact ht.get.2 _ h

theorem tracks_lineComment : ∀ (n : Nat) (s s' : In), Tracks text s → lineComment n s = .ok s' → Tracks text s'
  | 0, _, _, _, h => by cases h
  | n + 1, s, s', ht, h => by
    rw [lineComment] at h
    split at h
    · injection h with h; subst h; exact ht.get.1
    · exact tracks_lineComment n _ _ ht.get.1 h

theorem bind_ok_inv {α β : Type} {o : Out α} {f : α → Out β} {b : β} (h : o.bind f = .ok b) :
    ∃ a, o = .ok a ∧ f a = .ok b := by
  cases o with
  | ok a => exact ⟨a, rfl, h⟩
  | exc e => cases h
  | runtime => cases h
  | fuel => cases h

theorem tracks_expect {s s' : In} {e : Int} {f : Bool} (ht : Tracks text s) (h : s.expect e = .ok (f, s')) :
    Tracks text s' := by
  unfold In.expect at h
  split at h
  · obtain ⟨a, h1, h2⟩ := bind_ok_inv h
    injection h2 with h2
    injection h2 with _ h2
    subst h2
    exact ht.get.2 _ h1
  · injection h with h2
    injection h2 with _ h2
    subst h2
    exact ht.get.1

theorem tracks_blockComment : ∀ (n : Nat) (s s' : In), Tracks text s → blockComment n s = .ok s' → Tracks text s'
  | 0, _, _, _, h => by cases h
  | n + 1, s, s', ht, h => by
    rw [blockComment] at h
    split at h
    · obtain ⟨⟨f, a⟩, h1, h2⟩ := bind_ok_inv h
      have ha := tracks_expect ht.get.1 h1
      simp only at h2
      split at h2
      · injection h2 with h2; subst h2; exact ha
      · exact tracks_blockComment n _ _ ha h2
    · split at h
      · injection h with h; subst h; exact ht.get.1
      · exact tracks_blockComment n _ _ ht.get.1 h

theorem tracks_comment {n : Nat} {s s' : In} (ht : Tracks text s) (h : comment n s = .ok s') : Tracks text s' := by
  unfold comment at h
  split at h
  · exact tracks_lineComment n _ _ ht.get.1 h
  · split at h
    · exact tracks_blockComment n _ _ ht.get.1 h
    · injection h with h; subst h; exact ht.get.1

theorem tracks_unget_pair {α : Type} {s s' : In} {a b : α} (ht : Tracks text s)
    (h : (s.get.2.unget.bind fun s => .ok (a, s)) = .ok (b, s')) : Tracks text s' := by
  obtain ⟨x, h1, h2⟩ := bind_ok_inv h
  injection h2 with h2
  injection h2 with _ h2
  subst h2
  exact ht.get.2 _ h1

theorem tracks_nameLoop : ∀ (n : Nat) (f : Bool) (v w : Bytes) (s s' : In), Tracks text s →
    nameLoop n f v s = .ok (w, s') → Tracks text s'
  | 0, _, _, _, _, _, _, h => by cases h
  | n + 1, f, v, w, s, s', ht, h => by
    rw [nameLoop] at h
    split at h
    · split at h
      · exact tracks_unget_pair ht h
      · exact tracks_nameLoop n _ _ _ _ _ ht.get.1 h
    · exact tracks_unget_pair ht h

theorem tracks_qnameLoop (N l c : Nat) : ∀ (n : Nat) (t : Code) (v : Bytes) (t' : Code) (v' : Bytes) (s s' : In),
    Tracks text s → qnameLoop N l c n t v s = .ok (t', v', s') → Tracks text s'
  | 0, _, _, _, _, _, _, _, h => by cases h
  | n + 1, t, v, t', v', s, s', ht, h => by
    rw [qnameLoop] at h
    split at h
    · obtain ⟨⟨w, a⟩, h1, h2⟩ := bind_ok_inv h
      have ha := tracks_nameLoop _ _ _ _ _ _ ht.get.1 h1
      simp only at h2
      split at h2
      · cases h2
      · exact tracks_qnameLoop N l c n _ _ _ _ _ _ ha h2
    · obtain ⟨x, h1, h2⟩ := bind_ok_inv h
      injection h2 with h2
      injection h2 with _ h2
      injection h2 with _ h2
      subst h2
      exact ht.get.2 _ h1

theorem qnameLoop_code (N l c : Nat) : ∀ (n : Nat) (t : Code) (v : Bytes) (t' : Code) (v' : Bytes) (s s' : In),
    t ≠ .eof → qnameLoop N l c n t v s = .ok (t', v', s') → t' ≠ .eof
  | 0, _, _, _, _, _, _, _, h => by cases h
  | n + 1, t, v, t', v', s, s', ht, h => by
    rw [qnameLoop] at h
    split at h
    · obtain ⟨⟨w, a⟩, h1, h2⟩ := bind_ok_inv h
      simp only at h2
      split at h2
      · cases h2
      · exact qnameLoop_code N l c n _ _ _ _ _ _ (by decide) h2
    · obtain ⟨x, h1, h2⟩ := bind_ok_inv h
      injection h2 with h2
      injection h2 with h2 _
      subst h2
      exact ht

theorem findKeyword_code (v : Bytes) : ∀ l : List (Bytes × Code), (∀ q ∈ l, q.2 ≠ .eof) → findKeyword v l ≠ .eof
  | [], _ => by simp [findKeyword]
  | (k, c) :: l, h => by
    rw [findKeyword]
    split
    · exact h (k, c) (by simp)
    · exact findKeyword_code v l fun q hq => h q (by simp [hq])

theorem symbol_code {x : Int} {c : Code} (h : symbol x = some c) : c ≠ .eof := by
  unfold symbol at h
  repeat' split at h
  all_goals first
    | (injection h with h; subst h; decide)
    | cases h

theorem tracks_qname {N l c : Nat} {s s' : In} {t : Tok} (ht : Tracks text s) (h : qname N l c s = .ok (t, s')) :
    Tracks text s' ∧ t.code ≠ .eof ∧ t.line = l ∧ t.col = c := by
  unfold qname at h
  obtain ⟨⟨w, a⟩, h1, h2⟩ := bind_ok_inv h
  obtain ⟨⟨ty, v, b⟩, h3, h4⟩ := bind_ok_inv h2
  injection h4 with h4
  injection h4 with h4 h5
  subst h4 h5
  refine ⟨tracks_qnameLoop _ _ _ _ _ _ _ _ _ _ (tracks_nameLoop _ _ _ _ _ _ ht h1) h3, ?_, rfl, rfl⟩
  have := qnameLoop_code _ _ _ _ _ _ _ _ _ _ (by decide) h3
  simp only
  split
  · exact findKeyword_code _ _ (by decide)
  · exact this

theorem tracks_integerLoop : ∀ (n : Nat) (v w : Bytes) (s s' : In), Tracks text s →
    integerLoop n v s = .ok (w, s') → Tracks text s'
  | 0, _, _, _, _, _, h => by cases h
  | n + 1, v, w, s, s', ht, h => by
    rw [integerLoop] at h
    split at h
    · exact tracks_integerLoop n _ _ _ _ ht.get.1 h
    · exact tracks_unget_pair ht h

theorem tracks_stringLoop (l c : Nat) : ∀ (n : Nat) (v : Bytes) (t : Tok) (s s' : In), Tracks text s →
    stringLoop l c n v s = .ok (t, s') → Tracks text s' ∧ ((t.code ≠ .eof ∧ t.line = l ∧ t.col = c) ∨ t = Tok.default)
  | 0, _, _, _, _, _, h => by cases h
  | n + 1, v, t, s, s', ht, h => by
    rw [stringLoop] at h
    split at h
    · injection h with h; injection h with h1 h2; subst h1 h2; exact ⟨ht.get.1, Or.inr rfl⟩
    · split at h
      · injection h with h; injection h with h1 h2; subst h1 h2; exact ⟨ht.get.1, Or.inl ⟨by simp, rfl, rfl⟩⟩
      · exact tracks_stringLoop l c n _ _ _ _ ht.get.1 h

theorem unget_not_exc (s : In) (e : Exc) : s.unget ≠ .exc e := by
  unfold In.unget; split
  · split <;> simp
  · simp

theorem bind_unget_exc {α : Type} {s : In} {f : In → α} (e : Exc) : (s.unget.bind fun s => .ok (f s)) ≠ .exc e := by
  intro h
  cases hu : s.unget with
  | ok a => rw [hu] at h; cases h
  | exc x => exact unget_not_exc _ _ hu
  | runtime => rw [hu] at h; cases h
  | fuel => rw [hu] at h; cases h

theorem nameLoop_exc : ∀ (n : Nat) (f : Bool) (v : Bytes) (s : In) (e : Exc), nameLoop n f v s ≠ .exc e
  | 0, _, _, _, _ => by simp [nameLoop]
  | n + 1, f, v, s, e => by
    rw [nameLoop]
    split
    · split
      · exact bind_unget_exc e
      · exact nameLoop_exc n _ _ _ e
    · exact bind_unget_exc e

theorem integerLoop_exc : ∀ (n : Nat) (v : Bytes) (s : In) (e : Exc), integerLoop n v s ≠ .exc e
  | 0, _, _, _ => by simp [integerLoop]
  | n + 1, v, s, e => by
    rw [integerLoop]
    split
    · exact integerLoop_exc n _ _ e
    · exact bind_unget_exc e

theorem stringLoop_exc (l c : Nat) : ∀ (n : Nat) (v : Bytes) (s : In) (e : Exc), stringLoop l c n v s ≠ .exc e
  | 0, _, _, _ => by simp [stringLoop]
  | n + 1, v, s, e => by
    rw [stringLoop]
    split
    · simp
    · split
      · simp
      · exact stringLoop_exc l c n _ _ e

theorem qnameLoop_exc (N l c : Nat) : ∀ (n : Nat) (t : Code) (v : Bytes) (s : In) (e : Exc),
    qnameLoop N l c n t v s = .exc e → e.line = l ∧ e.col = c
  | 0, _, _, _, _, h => by cases h
  | n + 1, t, v, s, e, h => by
    rw [qnameLoop] at h
    split at h
    · cases hn : nameLoop N true [] s.get.2 with
      | ok p =>
        rw [hn] at h
        simp only [Out.bind] at h
        split at h
        · injection h with h; subst h; exact ⟨rfl, rfl⟩
        · exact qnameLoop_exc N l c n _ _ _ e h
      | exc x => exact absurd hn (nameLoop_exc _ _ _ _ _)
      | runtime => rw [hn] at h; cases h
      | fuel => rw [hn] at h; cases h
    · exact absurd h (bind_unget_exc e)

theorem qname_exc {N l c : Nat} {s : In} {e : Exc} (h : qname N l c s = .exc e) : e.line = l ∧ e.col = c := by
  unfold qname at h
  cases hn : nameLoop N true [] s with
  | ok p =>
    rw [hn] at h
    simp only [Out.bind] at h
    cases hq : qnameLoop N l c N .name p.1 p.2 with
    | ok q => rw [hq] at h; cases h
    | exc x => rw [hq] at h; injection h with h; subst h; exact qnameLoop_exc _ _ _ _ _ _ _ _ hq
    | runtime => rw [hq] at h; cases h
    | fuel => rw [hq] at h; cases h
  | exc x => exact absurd hn (nameLoop_exc _ _ _ _ _)
  | runtime => rw [hn] at h; cases h
  | fuel => rw [hn] at h; cases h

/-- Where the stream is after white space. -/
theorem Tracks.here {s : In} {pre bs : Bytes} (ht : Tracks (pre ++ bs) s) (hs : Sees s bs) :
    (s.ungot = true → s.line = lineAt pre ∧ s.col = colAt pre) ∧
    (s.ungot = false → s.newline.line = lineAt pre ∧ s.newline.col + 1 = colAt pre) := by
  obtain ⟨p, q, h1, h2, h3⟩ := ht
  have hq := sees_unique hs h2
  subst hq
  have hp := List.append_cancel_right h1
  subst hp
  constructor
  · intro hu
    rcases h3 with ⟨h, _⟩ | ⟨_, h⟩
    · rw [hu] at h; cases h
    · exact h
  · intro hu
    rcases h3 with ⟨_, h⟩ | ⟨h, _⟩
    · exact h
    · rw [hu] at h; cases h

/-- After `skipws` a character that was read was put back, and the end leaves the counters where they are. -/
theorem skipws_state : ∀ (n : Nat) (s s' : In) (bs : Bytes), Sees s bs → In.skipws n s = .ok s' →
    (∀ b r, bs.dropWhile wsB = b :: r → s'.ungot = true) ∧
    (bs.dropWhile wsB = [] → s'.ungot = false ∧ s'.newline = s')
  | 0, _, _, _, _, h => by cases h
  | n + 1, s, s', [], hs, h => by
    obtain ⟨h1, h2, h3⟩ := get_nil hs
    rw [In.skipws, h1, if_neg (by decide), h3] at h
    injection h with h
    subst h
    refine ⟨fun b r e => by simp at e, fun _ => ?_⟩
    rcases hs with ⟨hu, hr⟩ | ⟨_, _, _, hr⟩
    · rw [get_end hu hr]; exact ⟨rfl, rfl⟩
    · cases hr
  | n + 1, s, s', b :: r, hs, h => by
    obtain ⟨h1, h2, s'', h3, h4⟩ := get_cons hs
    rw [In.skipws, h1] at h
    by_cases hw : wsB b = true
    · have hw' : In.isWs (b.toNat : Int) = true := hw
      rw [if_pos hw'] at h
      rw [List.dropWhile_cons_of_pos hw]
      exact skipws_state n _ _ r h2 h
    · have hw' : ¬ In.isWs (b.toNat : Int) = true := hw
      rw [if_neg hw', h3] at h
      injection h with h
      subst h
      rw [List.dropWhile_cons_of_neg hw]
      refine ⟨fun _ _ _ => ?_, fun e => by cases e⟩
      rcases h4 with ⟨_, hr⟩ | ⟨hu, _⟩
      · simp only [In.unget] at h3
        split at h3
        · split at h3
          · cases h3
          · injection h3 with h3; subst h3; rfl
        · injection h3 with h3
          rename_i hlast
          exfalso
          apply hlast
          rcases hs with ⟨hu, hr⟩ | ⟨hu, x, hx, _⟩
          · rw [get_fresh hu hr]; exact Int.natCast_nonneg _
          · rw [get_ungot hu]; simp only; rw [hx]; exact Int.natCast_nonneg _
      · exact hu

theorem looseGap_ws : ∀ (w : Bytes), (∀ b ∈ w, wsB b = true) → LooseGap w
  | [], _ => .nil
  | b :: w, h => .space ((wsB_iff b).mp (h b (by simp))) (looseGap_ws w fun c hc => h c (by simp [hc]))

theorem LooseGap.append {g g' : Bytes} (h : LooseGap g) (h' : LooseGap g') : LooseGap (g ++ g') := by
  induction h with
  | nil => exact h'
  | space hb _ ih => exact .space hb ih
  | line hc _ ih => rw [List.append_assoc]; exact .line hc ih
  | block hc _ ih => rw [List.append_assoc]; exact .block hc ih
  | slash h1 h2 _ ih => exact .slash h1 h2 ih

/-- What the tokenizer starts with after the skipped part. -/
def Starts (bs : Bytes) : Prop := ∃ b r, bs = b :: r ∧ wsB b = false ∧ b ≠ 47

/-! ### What is skipped is determined -/

theorem starts_not_gap {x g x' : Bytes} (hx : Starts x) (hg : LooseGap g) (h : x = g ++ x') : g = [] := by
  obtain ⟨b, r, rfl, hw, h47⟩ := hx
  cases hg with
  | nil => rfl
  | space hb _ =>
    injection h with h _
    subst h
    rw [(wsB_iff b).mpr hb] at hw
    cases hw
  | line _ _ => injection h with h _; exact absurd h h47
  | block _ _ => injection h with h _; exact absurd h h47
  | slash _ _ _ => injection h with h _; exact absurd h h47

/-- What is skipped before something else begins with whatever can be skipped. -/
theorem gap_split {g : Bytes} (h : LooseGap g) : ∀ {g' x x' : Bytes}, LooseGap g' → Starts x' →
    g ++ x = g' ++ x' → ∃ g'', LooseGap g'' ∧ g' = g ++ g'' := by
  have ws47 : ∀ b : Byte, b ∈ b!" \t\n\r" → b ≠ 47 := by
    intro b hb e; subst e; revert hb; decide
  have none : ∀ {g g' x x' : Bytes}, LooseGap g → g' = [] → Starts x' → g ++ x = g' ++ x' →
      ∃ g'', LooseGap g'' ∧ g' = g ++ g'' := by
    intro g g' x x' hg h0 hx e
    subst h0
    have := starts_not_gap hx hg e.symm
    subst this
    exact ⟨[], .nil, rfl⟩
  induction h with
  | nil => intro g' x x' h' _ _; exact ⟨g', h', rfl⟩
  | space hb hg ih =>
    intro g' x x' h' hx' e
    cases h' with
    | nil => exact none (.space hb hg) rfl hx' e
    | space hb' h'' =>
      injection e with e1 e2
      obtain ⟨k, k1, k2⟩ := ih h'' hx' e2
      exact ⟨k, k1, by rw [e1, k2]; rfl⟩
    | line _ _ => injection e with e1 _; exact absurd e1 (ws47 _ hb)
    | block _ _ => injection e with e1 _; exact absurd e1 (ws47 _ hb)
    | slash _ _ _ => injection e with e1 _; exact absurd e1 (ws47 _ hb)
  | line hc hg ih =>
    rename_i c g
    intro g' x x' h' hx' e
    cases h' with
    | nil => exact none (.line hc hg) rfl hx' e
    | space hb' _ => injection e with e1 _; exact absurd e1.symm (ws47 _ hb')
    | line hc' h'' =>
      rename_i c' g''
      have e2 : c ++ 10 :: (g ++ x) = c' ++ 10 :: (g'' ++ x') := by simpa using e
      have a := afterLF_line (c := c) (g := g ++ x) hc
      rw [e2, afterLF_line hc'] at a
      injection a with a
      obtain ⟨k, k1, k2⟩ := ih h'' hx' a.symm
      rw [← a] at e2
      rw [List.append_cancel_right e2, k2]
      exact ⟨k, k1, by simp⟩
    | block _ _ =>
      have e2 := congrArg (fun l => l[1]?) e
      simp at e2
    | slash h1 _ _ =>
      have e2 := congrArg (fun l => l[1]?) e
      simp at e2
      exact absurd e2.symm h1
  | block hc hg ih =>
    rename_i c g
    intro g' x x' h' hx' e
    cases h' with
    | nil => exact none (.block hc hg) rfl hx' e
    | space hb' _ => injection e with e1 _; exact absurd e1.symm (ws47 _ hb')
    | line hc' h'' =>
      have e2 := congrArg (fun l => l[1]?) e
      simp at e2
    | block hc' h'' =>
      rename_i c' g''
      have e2 : c ++ 42 :: 47 :: (g ++ x) = c' ++ 42 :: 47 :: (g'' ++ x') := by simpa using e
      have a := afterBlock_block c (g ++ x) hc
      rw [e2, afterBlock_block c' _ hc'] at a
      obtain ⟨k, k1, k2⟩ := ih h'' hx' a.symm
      rw [← a] at e2
      rw [List.append_cancel_right e2, k2]
      exact ⟨k, k1, by simp⟩
    | slash _ h2 _ =>
      have e2 := congrArg (fun l => l[1]?) e
      simp at e2
      exact absurd e2.symm h2
  | slash h1 h2 hg ih =>
    intro g' x x' h' hx' e
    cases h' with
    | nil => exact none (.slash h1 h2 hg) rfl hx' e
    | space hb' _ => injection e with e1 _; exact absurd e1.symm (ws47 _ hb')
    | line hc' h'' =>
      have e2 := congrArg (fun l => l[1]?) e
      simp at e2
      exact absurd e2 h1
    | block hc' h'' =>
      have e2 := congrArg (fun l => l[1]?) e
      simp at e2
      exact absurd e2 h2
    | slash h1' h2' h'' =>
      injection e with _ e
      injection e with e1 e
      obtain ⟨k, k1, k2⟩ := ih h'' hx' e
      exact ⟨k, k1, by rw [e1, k2]; rfl⟩

theorem gap_unique {g : Bytes} (h : LooseGap g) {g' x x' : Bytes} (h' : LooseGap g') (hx : Starts x) (hx' : Starts x')
    (e : g ++ x = g' ++ x') : g = g' := by
  obtain ⟨k, k1, k2⟩ := gap_split h h' hx' e
  subst k2
  rw [List.append_assoc] at e
  have := starts_not_gap hx k1 (List.append_cancel_left e)
  subst this
  simp

/-- Only skipped characters, up to the end or to what is skipped to the end. -/
def Blank (bs : Bytes) : Prop := ∀ g bs1, LooseGap g → bs = g ++ bs1 → ¬ Starts bs1

theorem Blank.skip {g bs : Bytes} (hg : LooseGap g) (h : Blank bs) : Blank (g ++ bs) := by
  intro g' bs1 h' e hs
  obtain ⟨k, k1, k2⟩ := gap_split hg h' hs e
  subst k2
  rw [List.append_assoc] at e
  exact h k bs1 k1 (List.append_cancel_left e) hs

theorem blank_nil : Blank [] := by
  rintro g bs1 _ h ⟨b, r, rfl, _⟩
  simp at h

theorem blank_slash : Blank [47] := by
  rintro g bs1 hg h ⟨b, r, rfl, hw, hne⟩
  cases g with
  | nil => injection h with h _; exact hne h.symm
  | cons c g => injection h with _ h; simp at h

theorem blank_block {c : Bytes} (hc : ¬ ∃ p q, c = p ++ b!"*/" ++ q) : Blank (47 :: 42 :: c) := by
  rintro g bs1 hg h ⟨b, r, rfl, hw, hne⟩
  cases hg with
  | nil => injection h with h _; exact hne h.symm
  | space hb _ =>
    injection h with h _
    subst h
    revert hb
    decide
  | line _ _ =>
    have e2 := congrArg (fun l => l[1]?) h
    simp at e2
  | @block d g hd hg =>
    injection h with _ h
    injection h with _ h
    refine hc ⟨d, g ++ b :: r, ?_⟩
    rw [h]
    simp
  | slash _ h2 _ =>
    injection h with _ h
    injection h with h _
    exact h2 h.symm

/-- The place of the outcome of the tokenizer. -/
def Placed (text pre bs : Bytes) : Out (Tok × In) → Prop
  | .ok (t, s') => Tracks text s' ∧
      ((∃ g bs1, LooseGap g ∧ bs = g ++ bs1 ∧ Starts bs1 ∧
          ((t.code ≠ .eof ∧ t.line = lineAt (pre ++ g) ∧ t.col = colAt (pre ++ g)) ∨ (t = Tok.default ∧ ∃ r, bs1 = 34 :: r))) ∨
       (Blank bs ∧ t.code = .eof ∧ t.line = lineAt text ∧ t.col + 1 = colAt text))
  | .exc e => ∃ g bs1, LooseGap g ∧ bs = g ++ bs1 ∧ Starts bs1 ∧ e.line = lineAt (pre ++ g) ∧ e.col = colAt (pre ++ g)
  | _ => True

theorem Placed.skip {pre g bs : Bytes} {o : Out (Tok × In)} (hg : LooseGap g) (h : Placed text (pre ++ g) bs o) :
    Placed text pre (g ++ bs) o := by
  cases o with
  | ok p =>
    obtain ⟨t, s'⟩ := p
    obtain ⟨h1, h2⟩ := h
    refine ⟨h1, ?_⟩
    rcases h2 with ⟨g', bs1, h3, h4, h5, h6⟩ | h2
    · refine Or.inl ⟨g ++ g', bs1, hg.append h3, by simp [h4], h5, ?_⟩
      rw [← List.append_assoc]
      exact h6
    · exact Or.inr ⟨h2.1.skip hg, h2.2⟩
  | exc e =>
    obtain ⟨g', bs1, h3, h4, h5, h6⟩ := h
    exact ⟨g ++ g', bs1, hg.append h3, by simp [h4], h5, by rw [← List.append_assoc]; exact h6⟩
  | runtime => trivial
  | fuel => trivial

/-- At the end of the text nothing can follow. -/
theorem placed_end {pre bs : Bytes} {o : Out (Tok × In)} (hb : Blank bs) (h : Placed text text [] o) : Placed text pre bs o := by
  have no : ∀ g bs1 : Bytes, [] = g ++ bs1 → ¬ Starts bs1 := by
    rintro g bs1 h ⟨b, r, rfl, _⟩
    simp at h
  cases o with
  | ok p =>
    obtain ⟨h1, h2⟩ := h
    refine ⟨h1, ?_⟩
    rcases h2 with ⟨g, bs1, _, h4, h5, _⟩ | h2
    · exact absurd h5 (no _ _ h4)
    · exact Or.inr ⟨hb, h2.2⟩
  | exc e =>
    obtain ⟨g, bs1, _, h4, h5, _⟩ := h
    exact absurd h5 (no _ _ h4)
  | runtime => trivial
  | fuel => trivial

theorem placed_fuel {pre bs : Bytes} : Placed text pre bs .fuel := trivial

/-- **The tokenizer records where tokens begin.** -/
theorem lexLoop_placed (N : Nat) : ∀ (n : Nat) (s : In) (pre bs : Bytes), text = pre ++ bs → Tracks text s →
    Sees s bs → Placed text pre bs (lexLoop N n s)
  | 0, _, _, _, _, _, _ => trivial
  | n + 1, s, pre, bs, htx, ht, h => by
    rw [lexLoop]
    have hsplit : bs = bs.takeWhile wsB ++ bs.dropWhile wsB := (List.takeWhile_append_dropWhile).symm
    have hgap : LooseGap (bs.takeWhile wsB) := looseGap_ws _ fun b hb => mem_takeWhile hb
    rcases skipws_spec N s bs h with ⟨s', e1, e2⟩ | ⟨e1, e2⟩
    case inr => rw [e1]; exact placed_fuel
    have ht' := tracks_skipws N s s' ht e1
    obtain ⟨st1, st2⟩ := skipws_state N s s' bs h e1
    rw [e1]
    simp only [Out.bind]
    cases hd : bs.dropWhile wsB with
    | nil =>
      rw [hd] at e2
      obtain ⟨h1, h2, h3⟩ := get_nil e2
      rw [h1, if_pos (by decide)]
      obtain ⟨su, sn⟩ := st2 hd
      have hp := (Tracks.here (pre := text) (bs := []) (by simpa using ht') e2).2 su
      rw [sn] at hp
      rw [hd, List.append_nil] at hsplit
      have hbl := blank_nil.skip hgap
      rw [List.append_nil, ← hsplit] at hbl
      exact ⟨ht'.get.1, Or.inr ⟨hbl, rfl, hp.1, hp.2⟩⟩
    | cons b r =>
      rw [hd] at e2 hsplit
      have hws := dropWhile_head hd
      rw [hsplit] at htx ⊢
      generalize bs.takeWhile wsB = w at *
      refine Placed.skip hgap ?_
      have htx' : text = (pre ++ w) ++ b :: r := by rw [htx, List.append_assoc]
      generalize pre ++ w = q at *
      clear htx hsplit
      have hp := (Tracks.here (pre := q) (by rw [← htx']; exact ht') e2).1 (st1 b r hd)
      obtain ⟨h1, h2, s'', h3, h4⟩ := get_cons e2
      have t2 := ht'.get.1
      have e10 : (b.toNat : Int) = 10 ↔ b = 10 := toNat_eq_iff b 10 (by decide)
      have e13 : (b.toNat : Int) = 13 ↔ b = 13 := toNat_eq_iff b 13 (by decide)
      have e47 : (b.toNat : Int) = 47 ↔ b = 47 := toNat_eq_iff b 47 (by decide)
      have e34 : (b.toNat : Int) = 34 ↔ b = 34 := toNat_eq_iff b 34 (by decide)
      have here : b ≠ 47 → ∀ (t : Tok) (s3 : In), Tracks text s3 → (t.code ≠ .eof ∧ t.line = s'.line ∧ t.col = s'.col) →
          Placed text q (b :: r) (.ok (t, s3)) := by
        intro hne t s3 h3 h4
        exact ⟨h3, Or.inl ⟨[], b :: r, .nil, rfl, ⟨b, r, rfl, hws, hne⟩, Or.inl (by
          rw [List.append_nil, h4.2.1, h4.2.2]; exact ⟨h4.1, hp⟩)⟩⟩
      have fails : b ≠ 47 → ∀ k, Placed text q (b :: r) (.exc ⟨k, s'.line, s'.col⟩) := by
        intro hne k
        exact ⟨[], b :: r, .nil, rfl, ⟨b, r, rfl, hws, hne⟩, by rw [List.append_nil]; exact hp⟩
      rw [h1, if_neg (by omega)]
      by_cases hl : isLetter (b.toNat : Int) = true
      · have hne : b ≠ 47 := by intro e; subst e; revert hl; decide
        rw [if_pos hl, h3]
        change Placed text q (b :: r) (qname N s'.line s'.col s'')
        cases hq : qname N s'.line s'.col s'' with
        | ok p =>
          obtain ⟨t, s3⟩ := p
          obtain ⟨k1, k2⟩ := tracks_qname (ht'.get.2 _ h3) hq
          exact here hne t s3 k1 k2
        | exc e =>
          have : e.line = s'.line ∧ e.col = s'.col := qname_exc hq
          obtain ⟨k, l, c⟩ := e
          obtain ⟨rfl, rfl⟩ := this
          exact fails hne k
        | runtime => trivial
        | fuel => trivial
      · rw [if_neg hl]
        by_cases hg : isDig (b.toNat : Int) = true
        · have hne : b ≠ 47 := by intro e; subst e; revert hg; decide
          rw [if_pos hg]
          unfold integer
          cases hq : integerLoop N (if (b.toNat : Int) ≠ 0 then [chr b.toNat] else []) s'.get.2 with
          | ok p =>
            obtain ⟨t, s3⟩ := p
            exact here hne _ s3 (tracks_integerLoop _ _ _ _ _ t2 hq) ⟨by simp, rfl, rfl⟩
          | exc e => exact absurd hq (integerLoop_exc N _ _ e)
          | runtime => trivial
          | fuel => trivial
        · rw [if_neg hg]
          by_cases h47 : b = 47
          · rw [if_pos (e47.mpr h47)]
            subst h47
            unfold comment
            cases r with
            | nil =>
              obtain ⟨g1, g2, g3⟩ := get_nil h2
              rw [g1, if_neg (by decide), if_neg (by decide)]
              exact placed_end blank_slash (lexLoop_placed N n _ text [] (by simp) t2.get.1 g2)
            | cons c r' =>
              obtain ⟨g1, g2, s3, g3, g4⟩ := get_cons h2
              have f47 : (c.toNat : Int) = 47 ↔ c = 47 := toNat_eq_iff c 47 (by decide)
              have f42 : (c.toNat : Int) = 42 ↔ c = 42 := toNat_eq_iff c 42 (by decide)
              rw [g1]
              by_cases hc : c = 47
              · rw [if_pos (f47.mpr hc)]
                subst hc
                have hlc := lineComment_spec N s'.get.2.get.2 r' g2
                cases ha : afterLF r' with
                | none =>
                  rw [ha] at hlc
                  simp only at hlc ⊢
                  rw [hlc]; trivial
                | some q' =>
                  rw [ha] at hlc
                  simp only at hlc ⊢
                  rcases hlc with ⟨s4, k, k'⟩ | ⟨k, _⟩
                  · obtain ⟨d, hd1, hd2⟩ := afterLF_split ha
                    rw [k]
                    have hg : LooseGap (b!"//" ++ d ++ 10 :: []) := .line hd1 .nil
                    have := Placed.skip (text := text) (pre := q) hg (lexLoop_placed N n s4 _ q' (by
                      rw [htx', hd2]; simp) (tracks_lineComment _ _ _ t2.get.1 k) k')
                    rw [hd2]
                    simpa using this
                  · rw [k]; trivial
              · rw [if_neg (fun e => hc (f47.mp e))]
                by_cases hc2 : c = 42
                · rw [if_pos (f42.mpr hc2)]
                  subst hc2
                  rcases blockComment_spec N s'.get.2.get.2 r' g2 with ⟨s4, k, k'⟩ | ⟨k, _⟩
                  · rw [k]
                    have t4 := tracks_blockComment _ _ _ t2.get.1 k
                    rcases afterBlock_cases _ r' (Nat.le_refl _) with ⟨d, hd1, hd2⟩ | ⟨hd0, hd2⟩
                    · have hg : LooseGap (b!"/*" ++ d ++ b!"*/" ++ []) := .block hd1 .nil
                      have := Placed.skip (text := text) (pre := q) hg (lexLoop_placed N n s4 _ (afterBlock r') (by
                        rw [htx', hd2]; simp [← hd2]) t4 k')
                      rw [hd2]
                      simpa [← hd2] using this
                    · rw [hd2] at k'
                      exact placed_end (blank_block hd0) (lexLoop_placed N n _ text [] (by simp) t4 k')
                  · rw [k]; trivial
                · rw [if_neg (fun e => hc2 (f42.mp e))]
                  have hg : LooseGap [47, c] := .slash hc hc2 .nil
                  exact Placed.skip (text := text) (pre := q) (bs := r') hg (lexLoop_placed N n _ _ r' (by
                    rw [htx']; simp) t2.get.1 g2)
          · rw [if_neg (fun e => h47 (e47.mp e))]
            have hn10 : ¬ ((b.toNat : Int) = 10 ∨ (b.toNat : Int) = 13) := by
              rintro (h | h)
              · rw [e10.mp h] at hws; cases hws
              · rw [e13.mp h] at hws; cases hws
            rw [if_neg hn10]
            by_cases h34 : b = 34
            · rw [if_pos (e34.mpr h34)]
              subst h34
              cases hq : stringLoop s'.line s'.col N [] s'.get.2 with
              | ok p =>
                obtain ⟨t, s3⟩ := p
                obtain ⟨k1, k2⟩ := tracks_stringLoop _ _ _ _ _ _ _ t2 hq
                rcases k2 with k2 | k2
                · exact here h47 t s3 k1 k2
                · exact ⟨k1, Or.inl ⟨[], 34 :: r, .nil, rfl, ⟨34, r, rfl, hws, h47⟩, Or.inr ⟨k2, r, rfl⟩⟩⟩
              | exc e => exact absurd hq (stringLoop_exc _ _ _ _ _ e)
              | runtime => trivial
              | fuel => trivial
            · rw [if_neg (fun e => h34 (e34.mp e))]
              cases hsy : symbol (b.toNat : Int) with
              | some c => exact here h47 _ _ t2 ⟨symbol_code hsy, rfl, rfl⟩
              | none => exact fails h47 _

end PG.Proto
