import Verif.Proofs.ProtoBad
/-
More on layouts: they are unambiguous, every list of lexical elements has one, and the parser ends on them.
-/
set_option autoImplicit false
namespace PG.Proto

theorem tok_inj {l l' : Lexeme} (h : l.Valid) (h' : l'.Valid) (e : l.tok = l'.tok) : l = l' := by
  have e' : (l.tok.1, l.tok.2) = l'.tok := e
  generalize hc : l.tok.1 = c at e'
  generalize hv : l.tok.2 = v at e'
  have e1 : (c, v) = l.tok := by rw [← hc, ← hv]
  rcases tok_cases h e1 with ⟨n, h1, h2, h3, hk⟩ | hk | hk | ⟨b, h1, h2, hk⟩ <;>
    rcases tok_cases h' e' with ⟨n', g1, g2, g3, gk⟩ | gk | gk | ⟨b', g1, g2, gk⟩
  · rw [h1, g1, ← h2, ← g2]
  · exfalso
    rcases hk with hk | hk | hk
    · rw [gk.2.1] at hk; exact absurd hk.1 (by decide)
    · rw [gk.2.1] at hk; exact absurd hk.1 (by decide)
    · exact (keywords_not_name _ hk.1).2.2.1 gk.2.1
  · exfalso
    rcases hk with hk | hk | hk
    · rw [gk.2.1] at hk; exact absurd hk.1 (by decide)
    · rw [gk.2.1] at hk; exact absurd hk.1 (by decide)
    · exact (keywords_not_name _ hk.1).2.2.2.1 gk.2.1
  · exfalso
    rcases hk with hk | hk | hk
    · rw [hk.1] at gk; simp at gk
    · rw [hk.1] at gk; simp at gk
    · have := keywords_symbols _ hk.1
      simp only at this
      rcases gk with g | g | g | g | g | g | g | g | g <;> simp [g.1] at this
  · exfalso
    rcases gk with gk | gk | gk
    · rw [hk.2.1] at gk; exact absurd gk.1 (by decide)
    · rw [hk.2.1] at gk; exact absurd gk.1 (by decide)
    · exact (keywords_not_name _ gk.1).2.2.1 hk.2.1
  · rw [hk.1, gk.1]
  · rw [hk.2.1] at gk; exact absurd gk.2.1 (by decide)
  · rw [hk.2.1] at gk; simp at gk
  · exfalso
    rcases gk with gk | gk | gk
    · rw [hk.2.1] at gk; exact absurd gk.1 (by decide)
    · rw [hk.2.1] at gk; exact absurd gk.1 (by decide)
    · exact (keywords_not_name _ gk.1).2.2.2.1 hk.2.1
  · rw [hk.2.1] at gk; exact absurd gk.2.1 (by decide)
  · rw [hk.1, gk.1]
  · rw [hk.2.1] at gk; simp at gk
  · exfalso
    rcases gk with gk | gk | gk
    · rw [gk.1] at hk; simp at hk
    · rw [gk.1] at hk; simp at hk
    · have := keywords_symbols _ gk.1
      simp only at this
      rcases hk with g | g | g | g | g | g | g | g | g <;> simp [g.1] at this
  · rw [gk.2.1] at hk; simp at hk
  · rw [gk.2.1] at hk; simp at hk
  · rw [h1, g1]
    rcases hk with k | k | k | k | k | k | k | k | k <;> rcases gk with g | g | g | g | g | g | g | g | g <;>
      first
        | (rw [k.1] at g; exact absurd g.1 (by decide))
        | rw [k.2, g.2]

/-- The lexical elements of a text are unique. -/
theorem loose_unique {ls : List Lexeme} {bs : Bytes} (h : LooseLayout ls bs) :
    ∀ {ls' : List Lexeme}, LooseLayout ls' bs → ls = ls' := by
  induction h with
  | @done g e hg he =>
    intro ls' h'
    obtain ⟨v, r, hz⟩ := fin_end ⟨g, e, hg, he, rfl⟩
    generalize hb : g ++ e = bs at h' hz
    cases h' with
    | done => rfl
    | next hg' hl' he' h' =>
      rw [List.append_assoc, alex_looseGap hg', alex_lexeme hl' he'] at hz
      injection hz with hz
      exact absurd hz (tok_not_eof hl' rfl)
  | @next l ls g rest hg hl he h ih =>
    intro ls' h'
    have ha : alex (g ++ l.text ++ rest) = .tok l.tok.1 l.tok.2 rest := by
      rw [List.append_assoc, alex_looseGap hg, alex_lexeme hl he]
    generalize hb : g ++ l.text ++ rest = bs at h' ha
    cases h' with
    | done hg' he' =>
      obtain ⟨v, r, hz⟩ := fin_end ⟨_, _, hg', he', rfl⟩
      rw [hz] at ha
      injection ha with ha
      exact absurd ha.symm (tok_not_eof hl rfl)
    | next hg' hl' he' h' =>
      rw [List.append_assoc, alex_looseGap hg', alex_lexeme hl' he'] at ha
      injection ha with e1 e2 e3
      subst e3
      rw [ih h', tok_inj hl hl' (by rw [Prod.ext_iff]; exact ⟨e1.symm, e2.symm⟩)]

/-- Lexical elements separated by spaces. -/
def render (ls : List Lexeme) : Bytes := ls.flatMap fun l => l.text ++ [32]

theorem ends_space (l : Lexeme) (r : Bytes) : l.Ends (32 :: r) := by
  cases l with
  | word n => exact (by decide : ¬ Letter 32 ∧ ¬ Digit 32 ∧ (32 : Byte) ≠ 46)
  | int d => exact (by decide : ¬ Digit 32)
  | str s => trivial
  | sym b => trivial

theorem layout_space : ∀ {ls : List Lexeme}, (∀ l ∈ ls, l.Valid) → ∀ {g : Bytes}, Gap g → Layout ls (g ++ render ls)
  | [], _, g, hg => by simpa [render] using Layout.done hg
  | l :: ls, h, g, hg => by
    have ih := layout_space (fun x hx => h x (List.mem_cons_of_mem _ hx)) (Gap.space (b := 32) (by decide) .nil)
    have := Layout.next hg (h l List.mem_cons_self) (ends_space l (render ls)) ih
    rw [show g ++ render (l :: ls) = g ++ l.text ++ ([32] ++ render ls) by simp [render]]
    exact this

theorem layout_render {ls : List Lexeme} (h : ∀ l ∈ ls, l.Valid) : Layout ls (render ls) := layout_space h .nil

theorem reserved_valid {n : Bytes} (h : n ∈ reserved) : (Lexeme.word n).Valid := .one (reserved_ident n h)

theorem value_valid {v : Value} (h : v.WF) : v.lexeme.Valid := by
  cases v with
  | bool b => cases b <;> exact reserved_valid (by decide +kernel)
  | ident n => exact h.1
  | int d => exact h
  | str s => exact h

theorem optDecl_valid {o : OptDecl} (h : o.WF) : ∀ l ∈ o.lexemes, l.Valid := by
  intro l hl
  simp only [OptDecl.lexemes, List.mem_cons, List.not_mem_nil, or_false] at hl
  rcases hl with rfl | rfl | rfl
  · exact h.1
  · exact (show _ ∈ _ by decide)
  · exact value_valid h.2.2

theorem field_valid {f : FieldDecl} (h : f.WF) : ∀ l ∈ f.lexemes, l.Valid := by
  obtain ⟨h1, h2, h3, h4⟩ := h
  intro l hl
  simp only [FieldDecl.lexemes, List.mem_append, List.mem_cons, List.not_mem_nil, or_false] at hl
  rcases hl with ((hl | rfl | rfl | rfl | rfl) | hl) | rfl
  · cases hlab : f.label <;> rw [hlab] at hl <;> simp only [Label.lexemes, List.mem_cons, List.not_mem_nil, or_false] at hl
    · rw [hl]; exact reserved_valid (by decide +kernel)
    · rw [hl]; exact reserved_valid (by decide +kernel)
  · cases ht : f.type with
    | scalar t => exact scalar_valid t
    | named n => rw [ht] at h1; exact h1.1
  · exact .one h2.1
  · exact (show _ ∈ _ by decide)
  · exact h3
  · cases hb : f.options with
    | none => rw [hb] at hl; cases hl
    | some os =>
      rw [hb] at hl h4
      simp only [bracketLexemes, List.mem_append, List.mem_cons, List.mem_flatMap, List.not_mem_nil, or_false] at hl
      rcases hl with (rfl | ⟨p, hp, hl | hl⟩) | rfl
      · exact (show _ ∈ _ by decide)
      · exact optDecl_valid (h4 p.1 (by simp only [bracketOpts, List.mem_map]; exact ⟨p, hp, rfl⟩)) l hl
      · split at hl
        · simp only [List.mem_cons, List.not_mem_nil, or_false] at hl
          rw [hl]; exact (show _ ∈ _ by decide)
        · cases hl
      · exact (show _ ∈ _ by decide)
  · exact (show _ ∈ _ by decide)

theorem item_valid {i : Item} (h : i.WF) : ∀ l ∈ i.lexemes, l.Valid := by
  cases i with
  | option o =>
    intro l hl
    simp only [Item.lexemes, List.mem_append, List.mem_cons, List.not_mem_nil, or_false] at hl
    rcases hl with (rfl | hl) | rfl
    · exact reserved_valid (by decide +kernel)
    · exact optDecl_valid h l hl
    · exact (show _ ∈ _ by decide)
  | field f => exact field_valid h

theorem decl_valid {d : Decl} (h : d.WF) : ∀ l ∈ d.lexemes, l.Valid := by
  intro l hl
  have hsc : (Lexeme.sym c!";").Valid := (show _ ∈ _ by decide)
  cases d with
  | «syntax» =>
    simp only [Decl.lexemes, Decl.opening, Decl.closing, List.mem_append, List.mem_cons, List.not_mem_nil, or_false] at hl
    rcases hl with (rfl | rfl | rfl) | rfl
    · exact reserved_valid (by decide +kernel)
    · exact (show _ ∈ _ by decide)
    · exact (by decide : 10 ∉ b!"proto3" ∧ 0 ∉ b!"proto3" ∧ 34 ∉ b!"proto3")
    · exact hsc
  | package p =>
    simp only [Decl.lexemes, Decl.opening, Decl.closing, List.mem_append, List.mem_cons, List.not_mem_nil, or_false] at hl
    rcases hl with (rfl | rfl) | rfl
    · exact reserved_valid (by decide +kernel)
    · exact h.1
    · exact hsc
  | option o =>
    simp only [Decl.lexemes, Decl.opening, Decl.closing, List.mem_append, List.mem_cons, List.not_mem_nil, or_false] at hl
    rcases hl with (rfl | hl) | rfl
    · exact reserved_valid (by decide +kernel)
    · exact optDecl_valid h l hl
    · exact hsc
  | message name body =>
    simp only [Decl.lexemes, Decl.opening, Decl.closing, List.mem_append, List.mem_cons, List.not_mem_nil, or_false,
      List.mem_flatMap] at hl
    rcases hl with ((rfl | rfl | rfl) | ⟨i, hi, hl⟩) | rfl
    · exact reserved_valid (by decide +kernel)
    · exact .one h.1.1
    · exact (show _ ∈ _ by decide)
    · exact item_valid (h.2 i hi) l hl
    · exact (show _ ∈ _ by decide)

theorem file_valid {ds : List Decl} (h : ∀ d ∈ ds, d.WF) : ∀ l ∈ fileLexemes ds, l.Valid := by
  intro l hl
  obtain ⟨d, hd, hl⟩ := List.mem_flatMap.mp hl
  exact decl_valid (h d hd) l hl

/-- Every well formed schema can be written. -/
theorem file_layout {ds : List Decl} (h : ∀ d ∈ ds, d.WF) : Layout (fileLexemes ds) (render (fileLexemes ds)) :=
  layout_render (file_valid h)

theorem good_anext_layout : GoodSource False (fun s => ∃ ls, Layout ls s) List.length anext := by
  rintro s ⟨ls, hs⟩
  unfold anext
  cases hx : alex s with
  | tok c v r =>
    have hlen := alex_length _ _ (Nat.le_refl _) c v r hx
    refine ⟨?_, hlen.1, hlen.2⟩
    cases ls with
    | nil =>
      rw [alex_layout_done hs] at hx
      injection hx with _ _ e
      exact ⟨[], e ▸ .done .nil⟩
    | cons l ls =>
      obtain ⟨r', e, h'⟩ := alex_layout hs
      rw [e] at hx
      injection hx with _ _ e
      exact ⟨ls, e ▸ h'⟩
  | exc k => exact alex_kind _ _ (Nat.le_refl _) k hx
  | hang =>
    cases ls with
    | nil => rw [alex_layout_done hs] at hx; cases hx
    | cons l ls =>
      obtain ⟨r', e, h'⟩ := alex_layout hs
      rw [e] at hx; cases hx

/-- The parser ends on every text that consists of lexical elements. -/
theorem parse_ends_layout {N : Nat} {ls : List Lexeme} {text : Bytes} (hl : Layout ls text) (hN : text.length < N) :
    parse N text ≠ .fuel := by
  have h := parse_tokens N text
  have g := h_parseFrom good_anext_layout N text ⟨ls, hl⟩ (fun h => absurd h (by omega))
  intro e
  rw [e] at h
  revert h g
  generalize parseFrom anext N text = p
  intro h g
  cases p <;> simp_all [Rel, Hoare] <;> omega

/-- A layout followed by something that does not extend its last element. -/
theorem layout_then {ls : List Lexeme} {text e : Bytes} (h : Layout ls text) (he : LooseEnd e)
    (hb : e.head? = some c!"/" ∨ e.head? = some c!"\"") : LooseLayout ls (text ++ e) := by
  have hend : ∀ (l : Lexeme) (rest : Bytes), l.Ends rest → l.Ends (rest ++ e) := by
    intro l rest hr
    cases rest with
    | cons b r => cases l <;> exact hr
    | nil =>
      rw [List.nil_append]
      cases e with
      | nil => cases l <;> trivial
      | cons b r =>
        simp only [List.head?_cons, Option.some.injEq] at hb
        cases l with
        | word n => rcases hb with rfl | rfl <;> refine ⟨?_, ?_, ?_⟩ <;> decide
        | int d => rcases hb with rfl | rfl <;> (show ¬ Digit _) <;> decide
        | str s => trivial
        | sym b => trivial
  induction h with
  | done hg => exact .done (loose_of_gap hg) he
  | next hg hl hr _ ih =>
    rw [List.append_assoc]
    exact .next (loose_of_gap hg) hl (hend _ _ hr) ih

/-! ### Characters that belong to no lexical element -/

theorem stray_table : ∀ b : Byte, Stray b → wsB b = false ∧ letterB b = false ∧ digitB b = false ∧ b ≠ 47 ∧ b ≠ 34 ∧
    symbol b.toNat = none ∧ ¬ Letter b ∧ ¬ Digit b ∧ b ≠ 46 := by
  intro b
  have key : ∀ n : _root_.Fin 256, Stray (UInt8.ofNat n.val) → wsB (UInt8.ofNat n.val) = false ∧
      letterB (UInt8.ofNat n.val) = false ∧ digitB (UInt8.ofNat n.val) = false ∧ (UInt8.ofNat n.val) ≠ 47 ∧
      (UInt8.ofNat n.val) ≠ 34 ∧ symbol (UInt8.ofNat n.val).toNat = none ∧ ¬ Letter (UInt8.ofNat n.val) ∧
      ¬ Digit (UInt8.ofNat n.val) ∧ (UInt8.ofNat n.val) ≠ 46 := by decide +kernel
  have h := key ⟨b.toNat, b.toNat_lt⟩
  simpa using h

theorem alex_stray {b : Byte} (h : Stray b) (r : Bytes) : alex (b :: r) = .exc .invalidSymbol := by
  obtain ⟨h1, h2, h3, h4, h5, h6, _⟩ := stray_table b h
  rw [alex_symbol r h1 h2 h3 h4 h5, h6]

/-- A stray character after some lexical elements. -/
def Strayed (s : Bytes) : Prop := ∃ ls pre b r, s = pre ++ b :: r ∧ Layout ls pre ∧ Stray b

theorem ends_stray {l : Lexeme} {rest : Bytes} {b : Byte} {r : Bytes} (h : l.Ends rest) (hb : Stray b) :
    l.Ends (rest ++ b :: r) := by
  obtain ⟨_, _, _, _, _, _, h1, h2, h3⟩ := stray_table b hb
  cases rest with
  | cons c r' => cases l <;> exact h
  | nil =>
    cases l with
    | word n => exact ⟨h1, h2, h3⟩
    | int d => exact h2
    | str s => trivial
    | sym b => trivial

theorem alex_strayed {s : Bytes} (h : Strayed s) :
    alex s = .exc .invalidSymbol ∨ ∃ (l : Lexeme) (r : Bytes), l.Valid ∧ alex s = .tok l.tok.1 l.tok.2 r ∧ Strayed r := by
  obtain ⟨ls, pre, b, r, rfl, hl, hb⟩ := h
  cases hl with
  | done hg => left; rw [alex_gap hg, alex_stray hb]
  | @next l ls g rest hg hl he h =>
    right
    refine ⟨l, rest ++ b :: r, hl, ?_, ls, rest, b, r, rfl, h, hb⟩
    rw [List.append_assoc, List.append_assoc, alex_gap hg, alex_lexeme hl (ends_stray he hb)]

theorem good_anext_strayed : GoodSource False Strayed List.length anext := by
  intro s hs
  unfold anext
  rcases alex_strayed hs with h | ⟨l, r, hl, h, hr⟩
  · rw [h]; simp [Hoare]
  · rw [h]
    have hlen := alex_length _ _ (Nat.le_refl _) _ _ _ h
    exact ⟨hr, hlen.1, hlen.2⟩

theorem parse_ends_strayed {N : Nat} {text : Bytes} (hs : Strayed text) (hN : text.length < N) :
    parse N text ≠ .fuel := by
  have h := parse_tokens N text
  have g := h_parseFrom good_anext_strayed N text hs (fun h => absurd h (by omega))
  intro e
  rw [e] at h
  revert h g
  generalize parseFrom anext N text = p
  intro h g
  cases p <;> simp_all [Rel, Hoare] <;> omega

theorem loose_not_strayed {ls : List Lexeme} {s : Bytes} (h : LooseLayout ls s) : ¬ Strayed s := by
  induction h with
  | done hg he =>
    intro hs
    obtain ⟨v, r, hz⟩ := fin_end ⟨_, _, hg, he, rfl⟩
    rcases alex_strayed hs with h | ⟨l, r, hl, h, hr⟩
    · rw [hz] at h; cases h
    · rw [hz] at h
      injection h with h
      exact absurd h.symm (tok_not_eof hl rfl)
  | next hg hl he _ ih =>
    intro hs
    rcases alex_strayed hs with h | ⟨l, r, hl', h, hr⟩
    · rw [List.append_assoc, alex_looseGap hg, alex_lexeme hl he] at h; cases h
    · rw [List.append_assoc, alex_looseGap hg, alex_lexeme hl he] at h
      injection h with _ _ h
      exact ih (h ▸ hr)

end PG.Proto
