import Verif.Proofs.ProtoRead
/-
Schemas that are well formed but whose field numbers are not acceptable, and schemas whose last message is not closed.
-/
set_option autoImplicit false
namespace PG.Proto
variable {z : Bytes}

/-- An exception about a field number. -/
def IndexError {α : Type} (o : Out α) : Prop := ∃ e, o = .exc e ∧ (e.kind = .invalidIndex ∨ ∃ n o, e.kind = .sameIndex n o)

theorem IndexError.bind {α β : Type} {o : Out α} (h : IndexError o) (f : α → Out β) : IndexError (o.bind f) := by
  obtain ⟨e, rfl, h⟩ := h
  exact ⟨e, rfl, h⟩

theorem w_field_bad {f : FieldDecl} (h : f.WF) {N : Nat} {msgs : List Message} {m : Message} {rest : List Lexeme}
    {tk : Tk LSrc} {x : Lexeme} (hz : tk.src.2 = z) (hx : x :: tk.src.1 = f.lexemes ++ rest) (hc : tk.cur = ltok x)
    (hu : tk.ungot = false) (hN : (bracketOpts f.options).length < N)
    (hi : ¬ (GoodIndex f.index ∧ ∀ g ∈ m.fields, g.index ≠ f.index)) :
    IndexError (parseField lnext N msgs m tk) := by
  obtain ⟨h1, h2, h3, h4⟩ := h
  have e : x :: tk.src.1 = f.label.lexemes ++ f.type.lexeme :: (.word f.name :: .sym c!"=" :: .int f.number ::
      (bracketLexemes f.options ++ .sym c!";" :: rest)) := by
    rw [hx]; simp [FieldDecl.lexemes]
  unfold parseField
  rw [w_label h1 hz e hc hu, bind_ok]
  dsimp only
  rw [w_type h1, bind_ok, at_next (at_fresh _ _), bind_ok]
  rw [if_neg (by rw [show (ltok (.word f.name)).code = (Lexeme.word f.name).tok.1 from rfl, code_of_nameOK h2]; simp)]
  rw [at_next (at_fresh _ _), bind_ok, if_neg (by rw [ltok_equal]; simp), at_next (at_fresh _ _), bind_ok]
  dsimp only
  rw [if_neg (show ¬ (ltok (.int f.number)).code ≠ .integer by simp [ltok, Lexeme.tok])]
  have hv : (ltok (.int f.number)).value = f.number := rfl
  have hidx : fieldIndex f.number = f.index := fieldIndex_digits h3
  rw [hv, hidx]
  by_cases hg : GoodIndex f.index
  · rw [if_neg (by rw [(badIndex_iff _).mpr hg]; simp)]
    obtain ⟨y, ys, hy⟩ : ∃ y ys, bracketLexemes f.options ++ .sym c!";" :: rest = y :: ys := by
      cases f.options with
      | none => exact ⟨_, _, rfl⟩
      | some l => exact ⟨_, _, rfl⟩
    rw [hy, at_next (at_fresh _ _), bind_ok, w_brackets (rest := rest) (x := y) h4 rfl hy.symm rfl rfl hN, bind_ok]
    dsimp only
    rw [if_neg (by rw [ltok_scolon]; simp), if_pos]
    · exact ⟨_, rfl, Or.inr ⟨_, _, rfl⟩⟩
    · simp only [List.any_eq_true, beq_iff_eq]
      refine Classical.byContradiction fun hn => hi ⟨hg, fun g hgm e => hn ⟨g, hgm, e⟩⟩
  · rw [if_pos]
    · exact ⟨_, rfl, Or.inl rfl⟩
    · cases hb : badIndex f.index with
      | true => rfl
      | false => exact absurd ((badIndex_iff _).mp hb) hg

theorem w_body_bad (N : Nat) (msgs : List Message) : ∀ (body : List Item) (n : Nat) (m : Message) (tk : Tk LSrc)
    (rest : List Lexeme), (∀ i ∈ body, i.WF) → (∀ f ∈ body.filterMap Item.field?, (bracketOpts f.options).length < N) →
    body.length < n → ¬ BodyOK (m.fields.map (·.index)) body →
    At z tk (body.flatMap Item.lexemes ++ rest) → IndexError (parseBody lnext N msgs n m tk)
  | _, 0, _, _, _, _, _, hn, _, _ => by omega
  | [], n + 1, m, tk, rest, _, _, _, hb, _ => absurd trivial hb
  | .option o :: body, n + 1, m, tk, rest, hw, hN, hn, hb, ht => by
    have e : (Item.option o :: body).flatMap Item.lexemes ++ rest =
        .word b!"option" :: (o.lexemes ++ .sym c!";" :: (body.flatMap Item.lexemes ++ rest)) := by
      simp [Item.lexemes]
    rw [e] at ht
    have ho : o.WF := hw _ List.mem_cons_self
    rw [parseBody, at_next ht, bind_ok, if_neg (by rw [ltok_option]; simp), if_neg (by rw [ltok_option]; simp),
      if_pos ltok_option, w_standardOption ho (at_fresh _ _), bind_ok]
    dsimp only
    exact w_body_bad N msgs body n _ _ rest (fun i hi => hw i (List.mem_cons_of_mem _ hi)) hN (by simpa using hn) hb
      (at_fresh _ _)
  | .field f :: body, n + 1, m, tk, rest, hw, hN, hn, hb, ht => by
    have hf : f.WF := hw _ List.mem_cons_self
    have e : (Item.field f :: body).flatMap Item.lexemes ++ rest =
        f.lexemes ++ (body.flatMap Item.lexemes ++ rest) := by
      simp [Item.lexemes]
    rw [e] at ht
    obtain ⟨x, xs, hx, k1, k2, k3⟩ := field_first hf.1 (body.flatMap Item.lexemes ++ rest)
    rw [hx] at ht
    rw [parseBody, at_next ht, bind_ok, if_neg k1, if_neg k2, if_neg k3]
    by_cases hg : GoodIndex f.index ∧ ∀ g ∈ m.fields, g.index ≠ f.index
    · rw [w_field hf (x := x) (rest := body.flatMap Item.lexemes ++ rest) rfl hx.symm rfl rfl
        (hN f (by simp [Item.field?])) hg.1 hg.2, bind_ok]
      dsimp only
      refine w_body_bad N msgs body n _ _ rest (fun i hi => hw i (List.mem_cons_of_mem _ hi))
        (fun g hg => hN g ?_) (by simpa using hn) ?_ (at_fresh _ _)
      · rw [List.filterMap_cons]; exact List.mem_cons_of_mem _ hg
      · rw [List.map_append]
        intro hb2
        refine hb ⟨hg.1, fun hm => ?_, hb2⟩
        obtain ⟨g, hgm, e⟩ := List.mem_map.mp hm
        exact hg.2 g hgm e
    · exact (w_field_bad hf (x := x) (rest := body.flatMap Item.lexemes ++ rest) rfl hx.symm rfl rfl
        (hN f (by simp [Item.field?])) hg).bind _

theorem w_item_bad {d : Decl} (h : d.WF) {N : Nat} (hN : Enough N d) (hi : ¬ DeclOK d) {t : Tree} {rest : List Lexeme}
    {x : Lexeme} {src : List Lexeme} (hx : x :: src = d.lexemes ++ rest) :
    (ltok x).code ≠ .eof ∧ IndexError (parseItem lnext N t { cur := ltok x, ungot := false, src := (src, z) }) := by
  cases d with
  | «syntax» => exact absurd trivial hi
  | package p => exact absurd trivial hi
  | option o => exact absurd trivial hi
  | message name body =>
    have e : (Decl.message name body).lexemes ++ rest = .word b!"message" :: .word name :: .sym c!"{" ::
        (body.flatMap Item.lexemes ++ .sym c!"}" :: rest) := by
      simp [Decl.lexemes, Decl.opening, Decl.closing]
    rw [e] at hx
    injection hx with h1 h2
    subst h1 h2
    refine ⟨by rw [ltok_message]; simp, ?_⟩
    unfold parseItem
    dsimp only
    rw [if_pos ltok_message]
    unfold parseMessage
    dsimp only
    rw [if_pos ltok_message, at_next (at_fresh _ _), bind_ok,
      if_pos (show isNameCode (ltok (.word name)).code = true from code_of_nameOK h.1), at_next (at_fresh _ _), bind_ok,
      if_neg (by rw [ltok_begin]; simp)]
    exact (w_body_bad N _ body N _ _ (.sym c!"}" :: rest) h.2 hN.2 hN.1 (by exact hi) (at_fresh _ _)).bind _

theorem w_proto_bad (N : Nat) : ∀ (ds : List Decl) (n : Nat) (t : Tree) (tk : Tk LSrc) (rest : List Lexeme),
    (∀ d ∈ ds, d.WF) → (∀ d ∈ ds, Enough N d) → (¬ ∀ d ∈ ds, DeclOK d) → ds.length < n →
    Near z tk (fileLexemes ds ++ rest) → IndexError (parseProto lnext N n t tk)
  | _, 0, _, _, _, _, _, _, hn, _ => by omega
  | [], n + 1, t, tk, _, _, _, hi, _, _ => absurd (by simp) hi
  | d :: ds, n + 1, t, tk, rest, hw, hN, hi, hn, ht => by
    have e : fileLexemes (d :: ds) ++ rest = d.lexemes ++ (fileLexemes ds ++ rest) := by
      simp [fileLexemes]
    obtain ⟨x, src, hx⟩ : ∃ x src, d.lexemes ++ (fileLexemes ds ++ rest) = x :: src := by
      cases d <;> exact ⟨_, _, rfl⟩
    rw [e, hx] at ht
    by_cases hd : DeclOK d
    · obtain ⟨k1, k2⟩ := w_item (hw d List.mem_cons_self) (hN d List.mem_cons_self) hd (t := t) hx.symm
      rw [parseProto, near_next ht, bind_ok, if_neg k1, k2, bind_ok]
      dsimp only
      rw [if_neg (closing_not_eof d)]
      refine w_proto_bad N ds n _ _ rest (fun i h => hw i (List.mem_cons_of_mem _ h))
        (fun i h => hN i (List.mem_cons_of_mem _ h)) (fun h => hi ?_) (by simpa using hn) (at_fresh _ _).2
      intro x hx
      rcases List.mem_cons.mp hx with rfl | hx
      · exact hd
      · exact h x hx
    · obtain ⟨k1, k2⟩ := w_item_bad (hw d List.mem_cons_self) (hN d List.mem_cons_self) hd (t := t) hx.symm
      rw [parseProto, near_next ht, bind_ok, if_neg k1]
      exact k2.bind _

/-- The parser over the lexical elements of a schema whose fields are not numbered properly. -/
theorem w_bad {ds : List Decl} (hw : ∀ d ∈ ds, d.WF) (hi : ¬ ∀ d ∈ ds, DeclOK d) {N : Nat}
    (hN : (fileLexemes ds).length < N) : IndexError (parseFrom lnext N (fileLexemes ds, z)) := by
  obtain ⟨h1, h2⟩ := file_length ds (N - 1) (by omega)
  obtain ⟨_, h3⟩ := file_length ds N (by omega)
  unfold parseFrom
  exact (w_proto_bad (z := z) N ds N _ _ [] hw h3 hi (by omega) (Or.inl ⟨rfl, by simp⟩)).bind _

/-! ### A last message without its closing brace -/

theorem w_body_open (hz : IsEnd z) (N : Nat) (msgs : List Message) : ∀ (body : List Item) (n : Nat) (m : Message)
    (tk : Tk LSrc), (∀ i ∈ body, i.WF) →
    (∀ f ∈ body.filterMap Item.field?, (bracketOpts f.options).length < N) →
    body.length < n → BodyOK (m.fields.map (·.index)) body →
    tk.ungot = false → tk.src = (body.flatMap Item.lexemes, z) → tk.cur.line = 0 →
    ∃ tk', parseBody lnext N msgs n m tk = .ok (body.foldl (addItem msgs) m, tk') ∧ tk'.cur.code = .eof
  | _, 0, _, _, _, _, hn, _, _, _, _ => by omega
  | [], n + 1, m, tk, _, _, _, _, hu, hs, _ => by
    obtain ⟨tk', h1, h2⟩ := near_end hz (Or.inl ⟨hu, hs⟩)
    rw [parseBody, h1, bind_ok, if_pos h2]
    exact ⟨tk', rfl, h2⟩
  | .option o :: body, n + 1, m, tk, hw, hN, hn, hb, hu, hs, hl => by
    have e : (Item.option o :: body).flatMap Item.lexemes =
        .word b!"option" :: (o.lexemes ++ .sym c!";" :: body.flatMap Item.lexemes) := by
      simp [Item.lexemes]
    rw [e] at hs
    have ho : o.WF := hw _ List.mem_cons_self
    rw [parseBody, at_next ⟨hl, Or.inl ⟨hu, hs⟩⟩, bind_ok, if_neg (by rw [ltok_option]; simp),
      if_neg (by rw [ltok_option]; simp), if_pos ltok_option, w_standardOption ho (at_fresh _ _), bind_ok]
    dsimp only
    exact w_body_open hz N msgs body n _ _ (fun i hi => hw i (List.mem_cons_of_mem _ hi)) hN (by simpa using hn) hb
      rfl rfl rfl
  | .field f :: body, n + 1, m, tk, hw, hN, hn, hb, hu, hs, hl => by
    have hf : f.WF := hw _ List.mem_cons_self
    have e : (Item.field f :: body).flatMap Item.lexemes = f.lexemes ++ body.flatMap Item.lexemes := by
      simp [Item.lexemes]
    rw [e] at hs
    obtain ⟨x, xs, hx, k1, k2, k3⟩ := field_first hf.1 (body.flatMap Item.lexemes)
    rw [hx] at hs
    obtain ⟨b1, b2, b3⟩ := hb
    rw [parseBody, at_next ⟨hl, Or.inl ⟨hu, hs⟩⟩, bind_ok, if_neg k1, if_neg k2, if_neg k3,
      w_field hf (x := x) (rest := body.flatMap Item.lexemes) rfl hx.symm rfl rfl
        (hN f (by simp [Item.field?])) b1 (fun g hg e => b2 (List.mem_map.mpr ⟨g, hg, e⟩)), bind_ok]
    dsimp only
    refine w_body_open hz N msgs body n _ _ (fun i hi => hw i (List.mem_cons_of_mem _ hi))
      (fun g hg => hN g ?_) (by simpa using hn) ?_ rfl rfl rfl
    · rw [List.filterMap_cons]; exact List.mem_cons_of_mem _ hg
    · rw [List.map_append]
      exact b3

theorem w_proto_open (hz : IsEnd z) (N : Nat) {name : Bytes} {body : List Item} (hm : (Decl.message name body).WF)
    (hmN : Enough N (.message name body)) (hmi : DeclOK (.message name body)) :
    ∀ (ds : List Decl) (n : Nat) (t : Tree) (tk : Tk LSrc), (∀ d ∈ ds, d.WF) →
    (∀ d ∈ ds, Enough N d) → (∀ d ∈ ds, DeclOK d) → ds.length + 1 < n → Near z tk (openLexemes ds name body) →
    parseProto lnext N n t tk = .ok ((ds ++ [Decl.message name body]).foldl addDecl t)
  | _, 0, _, _, _, _, _, hn, _ => by omega
  | [], n + 1, t, tk, _, _, _, _, ht => by
    have e : openLexemes [] name body = .word b!"message" :: .word name :: .sym c!"{" :: body.flatMap Item.lexemes := by
      simp [openLexemes, fileLexemes, Decl.opening]
    rw [e] at ht
    rw [parseProto, near_next ht, bind_ok, if_neg (by rw [ltok_message]; simp)]
    unfold parseItem
    dsimp only
    rw [if_pos ltok_message]
    unfold parseMessage
    dsimp only
    obtain ⟨tk', k1, k2⟩ := w_body_open hz N t.messages body N
      { fields := [], name := name, package := t.package, options := [] }
      { cur := ltok (.sym c!"{"), ungot := false, src := (body.flatMap Item.lexemes, z) } hm.2 hmN.2 hmN.1 hmi rfl rfl rfl
    rw [if_pos ltok_message, at_next (at_fresh _ _), bind_ok,
      if_pos (show isNameCode (ltok (.word name)).code = true from code_of_nameOK hm.1), at_next (at_fresh _ _), bind_ok,
      if_neg (by rw [ltok_begin]; simp), show (ltok (.word name)).value = name from rfl, k1, bind_ok]
    dsimp only
    rw [bind_ok]
    dsimp only
    rw [if_pos k2, foldl_addItem]
    rfl
  | d :: ds, n + 1, t, tk, hw, hN, hi, hn, ht => by
    have e : openLexemes (d :: ds) name body = d.lexemes ++ openLexemes ds name body := by
      simp [openLexemes, fileLexemes]
    obtain ⟨x, src, hx⟩ : ∃ x src, d.lexemes ++ openLexemes ds name body = x :: src := by
      cases d <;> exact ⟨_, _, rfl⟩
    rw [e, hx] at ht
    obtain ⟨k1, k2⟩ := w_item (hw d List.mem_cons_self) (hN d List.mem_cons_self) (hi d List.mem_cons_self)
      (t := t) hx.symm
    rw [parseProto, near_next ht, bind_ok, if_neg k1, k2, bind_ok]
    dsimp only
    rw [if_neg (closing_not_eof d)]
    exact w_proto_open hz N hm hmN hmi ds n _ _ (fun i h => hw i (List.mem_cons_of_mem _ h))
      (fun i h => hN i (List.mem_cons_of_mem _ h)) (fun i h => hi i (List.mem_cons_of_mem _ h))
      (by simp only [List.length_cons] at hn; omega) (at_fresh _ _).2

theorem open_length (ds : List Decl) (name : Bytes) (body : List Item) :
    (fileLexemes (ds ++ [Decl.message name body])).length = (openLexemes ds name body).length + 1 := by
  simp [fileLexemes, openLexemes, Decl.lexemes]; omega

/-- The parser over the lexical elements of a schema whose last message is not closed: as if it were. -/
theorem w_open (hz : IsEnd z) {ds : List Decl} {name : Bytes} {body : List Item} (hw : ∀ d ∈ ds ++ [Decl.message name body], d.WF)
    (hc : Consistent (ds ++ [Decl.message name body])) {N : Nat} (hN : (openLexemes ds name body).length + 1 < N) :
    parseFrom lnext N (openLexemes ds name body, z) = .ok (denote (ds ++ [Decl.message name body])) := by
  have hN' : (fileLexemes (ds ++ [Decl.message name body])).length < N := by rw [open_length]; exact hN
  rw [← w_consistent hz hw hc hN', w_parse hz hw ((declOK_iff _).mpr hc.1) hN']
  have hi := (declOK_iff _).mpr hc.1
  obtain ⟨h1, _⟩ := file_length (ds ++ [Decl.message name body]) (N - 1) (by omega)
  obtain ⟨_, h3⟩ := file_length (ds ++ [Decl.message name body]) N (by omega)
  have hlast : Decl.message name body ∈ ds ++ [Decl.message name body] := by simp
  have hpre : ∀ d ∈ ds, d ∈ ds ++ [Decl.message name body] := fun d hd => List.mem_append_left _ hd
  unfold parseFrom
  rw [w_proto_open hz N (hw _ hlast) (h3 _ hlast) (hi _ hlast) ds N _ _ (fun d hd => hw d (hpre d hd))
    (fun d hd => h3 d (hpre d hd)) (fun d hd => hi d (hpre d hd))
    (by simp only [List.length_append, List.length_cons, List.length_nil] at h1; omega) (Or.inl ⟨rfl, rfl⟩)]
  rfl

end PG.Proto
