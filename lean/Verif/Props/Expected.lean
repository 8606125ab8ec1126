import Verif.Proofs.ProtoStop
import Verif.Props.Grammar
import Verif.Props.Debug
/-
C67: which error a schema that is refused gets, and where; C43: which schemas are parsed for ever.
-/
set_option autoImplicit false
namespace PG.Proto

theorem parse_after (N : Nat) (text : Bytes) : parse N text =
    (parseProto (lex N) N N Tree.empty (start (In.open text))).bind fun t =>
      (resolveMessages t.messages t.messages).bind fun msgs => .ok { t with messages := msgs } := rfl

theorem resolve_outcome (msgs : List Message) : ∀ l : List Message,
    (∃ r, resolveMessages msgs l = .ok r) ∨ ∃ q, resolveMessages msgs l = .exc ⟨.unresolved q, 0, 0⟩ := by
  have fields : ∀ l : List Field,
      (∃ r, resolveFields msgs l = .ok r) ∨ ∃ q, resolveFields msgs l = .exc ⟨.unresolved q, 0, 0⟩ := by
    intro l
    induction l with
    | nil => exact Or.inl ⟨[], rfl⟩
    | cons f l ih =>
      rw [resolveFields]
      split
      · rcases ih with ⟨r, h⟩ | ⟨q, h⟩
        · rw [h]; exact Or.inl ⟨_, rfl⟩
        · rw [h]; exact Or.inr ⟨q, rfl⟩
      · split
        · exact Or.inr ⟨_, rfl⟩
        · rcases ih with ⟨r, h⟩ | ⟨q, h⟩
          · rw [h]; exact Or.inl ⟨_, rfl⟩
          · rw [h]; exact Or.inr ⟨q, rfl⟩
  intro l
  induction l with
  | nil => exact Or.inl ⟨[], rfl⟩
  | cons m l ih =>
    rw [resolveMessages]
    rcases fields m.fields with ⟨r, h⟩ | ⟨q, h⟩
    · rw [h, bind_ok]
      rcases ih with ⟨r, h⟩ | ⟨q, h⟩
      · rw [h]; exact Or.inl ⟨_, rfl⟩
      · rw [h]; exact Or.inr ⟨q, rfl⟩
    · rw [h]; exact Or.inr ⟨q, rfl⟩

/-- The parser follows the verdict on the text. -/
theorem parse_verdict {N : Nat} {text : Bytes} (hN : text.length < N) :
    (((∃ t, parse N text = .ok t) ∨ ∃ q, parse N text = .exc ⟨.unresolved q, 0, 0⟩) ∧ Whole text) ∨
    (∃ e, parse N text = .exc e ∧ Refused text e) ∨
    (parse N text = .fuel ∧ Endless text) := by
  have hp := parse_after N text
  rcases proto_verdict hN with ⟨t, h, hv⟩ | ⟨e, h, hv⟩ | h | ⟨h, hv⟩
  · rw [h, bind_ok] at hp
    refine Or.inl ⟨?_, hv⟩
    rcases resolve_outcome t.messages t.messages with ⟨r, h⟩ | ⟨q, h⟩
    · rw [h] at hp; exact Or.inl ⟨_, hp⟩
    · rw [h] at hp; exact Or.inr ⟨q, hp⟩
  · rw [h] at hp
    exact Or.inr (Or.inl ⟨e, hp, hv⟩)
  · rw [h] at hp
    have := parse_safe N text
    rw [hp] at this
    exact this.elim
  · rw [h] at hp
    exact Or.inr (Or.inr ⟨hp, hv⟩)

theorem refused_kind {text : Bytes} {e : Exc} (h : Refused text e) (u : Bytes) : e.kind ≠ .unresolved u := by
  have hnext : ∀ (p : Place) (l : Lexeme) (k : Kind), p.next l = .error k → k ≠ .unresolved u := by
    intro p l k h
    rintro rfl
    cases p <;> simp only [Place.next, Place.field] at h <;> (repeat' split at h) <;> cases h
  rcases h with ⟨ls, pre, x, r, q, _, _, h, _⟩ | ⟨ls, q, _, _, h, _⟩
  · cases x with
    | lexeme l =>
      simp only [Place.error] at h
      split at h
      · cases h
      · rename_i k hk
        injection h with h
        rw [← h]
        exact hnext _ _ _ hk
    | stray b => injection h with h; rw [← h]; simp
    | ident n => injection h with h; rw [← h]; simp
  · intro hk
    rw [hk] at h
    rename_i ha _
    clear ha
    cases q with
    | optEnd w => cases w <;> cases h
    | _ => cases h

/-- **C67, the three kinds of texts.**  Every text is whole, refused with one error, or cut off in a comment or a string,
and nothing of this at the same time. -/
theorem C67_verdict (text : Bytes) :
    (Whole text ∧ (∀ e, ¬ Refused text e) ∧ ¬ Endless text) ∨
    (¬ Whole text ∧ (∃ e, Refused text e ∧ ∀ e', Refused text e' → e' = e) ∧ ¬ Endless text) ∨
    (¬ Whole text ∧ (∀ e, ¬ Refused text e) ∧ Endless text) := by
  have uw : ∀ {e}, Whole text → Refused text e → False := fun h h' => by
    cases verdict_unique (o := .accepted) (o' := .failed _) h h'
  have ue : Whole text → Endless text → False := fun h h' => by
    cases verdict_unique (o := .accepted) (o' := .endless) h h'
  have ur : ∀ {e}, Refused text e → Endless text → False := fun h h' => by
    cases verdict_unique (o := .failed _) (o' := .endless) h h'
  rcases parse_verdict (Nat.lt_succ_self text.length) with ⟨_, h⟩ | ⟨e, _, h⟩ | ⟨_, h⟩
  · exact Or.inl ⟨h, fun e h' => uw h h', ue h⟩
  · refine Or.inr (Or.inl ⟨fun h' => uw h' h, ⟨e, h, fun e' h' => ?_⟩, ur h⟩)
    have := verdict_unique (o := .failed e') (o' := .failed e) h' h
    injection this
  · exact Or.inr (Or.inr ⟨fun h' => ue h' h, fun e h' => ur h' h, h⟩)

/-- **C67.**  A schema is refused, for another reason than a type that is not found, exactly when it starts with lexical
elements each of which is expected at its place and then comes something that is not expected: the error is the one for
that place, and its position is that of the first character that is not expected.  If it is the end of the file that is
not expected, the position is that of the end, see `EndsAt`. -/
theorem C67_refused_iff {N : Nat} {text : Bytes} {e : Exc} (hN : text.length < N) :
    (parse N text = .exc e ∧ ∀ q, e.kind ≠ .unresolved q) ↔ Refused text e := by
  constructor
  · rintro ⟨h, hk⟩
    rcases parse_verdict hN with ⟨⟨t, h1⟩ | ⟨q, h1⟩, _⟩ | ⟨e', h1, h2⟩ | ⟨h1, _⟩ <;> rw [h] at h1
    · cases h1
    · injection h1 with h1; rw [h1] at hk; exact absurd rfl (hk q)
    · injection h1 with h1; rw [h1]; exact h2
    · cases h1
  · intro h
    refine ⟨?_, refused_kind h⟩
    rcases parse_verdict hN with ⟨_, h1⟩ | ⟨e', h1, h2⟩ | ⟨_, h1⟩
    · cases verdict_unique (o := .accepted) (o' := .failed _) h1 h
    · have := verdict_unique (o := .failed e') (o' := .failed e) h2 h
      injection this with this
      rw [h1, this]
    · cases verdict_unique (o := .endless) (o' := .failed _) h1 h

/-- **C43, exactly which files are parsed for ever.**  The parser does not terminate on a text, whatever the number of
steps, exactly when the text starts with lexical elements each of which is expected at its place, and then comes a
comment to the end of the line, or a string, that the end of the file cuts off. -/
theorem C43_runs_forever_iff (text : Bytes) : (∀ N, parse N text = .fuel) ↔ Endless text := by
  constructor
  · intro h
    rcases parse_verdict (Nat.lt_succ_self text.length) with ⟨⟨t, h1⟩ | ⟨q, h1⟩, _⟩ | ⟨e', h1, _⟩ | ⟨_, h1⟩
    · rw [h] at h1; cases h1
    · rw [h] at h1; cases h1
    · rw [h] at h1; cases h1
    · exact h1
  · intro h N
    have big : parse (max N (text.length + 1)) text = .fuel := by
      rcases parse_verdict (show text.length < max N (text.length + 1) by omega) with ⟨_, h1⟩ | ⟨e', _, h1⟩ | ⟨h1, _⟩
      · cases verdict_unique (o := .accepted) (o' := .endless) h1 h
      · cases verdict_unique (o := .failed _) (o' := .endless) h1 h
      · exact h1
    rcases parse_mono (show N ≤ max N (text.length + 1) by omega) text with h1 | h1
    · exact h1
    · rw [h1]; exact big

/-- **C43.**  Otherwise it terminates, in a number of steps of each loop that the size of the text bounds. -/
theorem C43_terminates {text : Bytes} (h : ¬ Endless text) {N : Nat} (hN : text.length < N) : parse N text ≠ .fuel := by
  intro hf
  rcases parse_verdict hN with ⟨⟨t, h1⟩ | ⟨q, h1⟩, _⟩ | ⟨e', h1, _⟩ | ⟨_, h1⟩
  · rw [hf] at h1; cases h1
  · rw [hf] at h1; cases h1
  · rw [hf] at h1; cases h1
  · exact h h1

/-! ### The places and the grammar -/

theorem w_open_parse {z : Bytes} (hz : IsEnd z) {ds : List Decl} {name : Bytes} {body : List Item}
    (hw : ∀ d ∈ ds ++ [Decl.message name body], d.WF) (hi : ∀ d ∈ ds ++ [Decl.message name body], DeclOK d) {N : Nat}
    (hN : (openLexemes ds name body).length + 1 < N) :
    parseFrom lnext N (openLexemes ds name body, z) = parseFrom lnext N (fileLexemes (ds ++ [.message name body]), z) := by
  have hN' : (fileLexemes (ds ++ [Decl.message name body])).length < N := by rw [open_length]; exact hN
  rw [w_parse hz hw hi hN']
  obtain ⟨h1, _⟩ := file_length (ds ++ [Decl.message name body]) (N - 1) (by omega)
  obtain ⟨_, h3⟩ := file_length (ds ++ [Decl.message name body]) N (by omega)
  have hlast : Decl.message name body ∈ ds ++ [Decl.message name body] := by simp
  have hpre : ∀ d ∈ ds, d ∈ ds ++ [Decl.message name body] := fun d hd => List.mem_append_left _ hd
  unfold parseFrom
  rw [w_proto_open hz N (hw _ hlast) (h3 _ hlast) (hi _ hlast) ds N _ _ (fun d hd => hw d (hpre d hd))
    (fun d hd => h3 d (hpre d hd)) (fun d hd => hi d (hpre d hd))
    (by simp only [List.length_append, List.length_cons, List.length_nil] at h1; omega) (Or.inl ⟨rfl, rfl⟩)]
  rfl

/-- The text reads as these declarations, or as these without the last closing brace. -/
def ReadsAs (text : Bytes) (ds : List Decl) : Prop :=
  LooseLayout (fileLexemes ds) text ∨
    ∃ ds' name body, ds = ds' ++ [.message name body] ∧ LooseLayout (openLexemes ds' name body) text

/-- The field numbers are good and distinct within their message. -/
def Numbered (ds : List Decl) : Prop :=
  ∀ m ∈ located [] ds, (∀ f ∈ m.2.2.filterMap Item.field?, GoodIndex f.index) ∧
    ((m.2.2.filterMap Item.field?).map (·.index)).Pairwise (· ≠ ·)

/-- A message with a field whose type is no message. -/
def sampleUnknown : Bytes := b!"package p; message M { X a = 1; Y b = 2; }\n"

theorem consistent_iff (ds : List Decl) : Consistent ds ↔ Numbered ds ∧ unknownTypes ds = [] := by
  refine and_congr Iff.rfl ⟨?_, ?_⟩
  · intro h
    refine Classical.byContradiction fun hu => ?_
    obtain ⟨m, hm, f, hf, n, hn, hq⟩ := (unknownTypes_ne_nil ds).mp hu
    exact hq (h m hm f hf n hn)
  · intro h m hm f hf n hn
    exact Classical.byContradiction fun hq => (unknownTypes_ne_nil ds).mpr ⟨m, hm, f, hf, n, hn, hq⟩ h

theorem reads_outcome {ds : List Decl} {text : Bytes} (hw : ∀ d ∈ ds, d.WF) (hn : Numbered ds) (hl : ReadsAs text ds)
    {N : Nat} (hN : text.length + 1 < N) :
    (∃ q, (unknownTypes ds).head? = some q ∧ parse N text = .exc ⟨.unresolved q, 0, 0⟩) ∨
    (unknownTypes ds = [] ∧ ∃ t, parse N text = .ok t) := by
  cases hu : unknownTypes ds with
  | cons q r =>
    refine Or.inl ⟨q, rfl, ?_⟩
    have key : ∀ {ls : List Lexeme}, LooseLayout ls text →
        (∀ z, IsEnd z → parseFrom lnext N (ls, z) = .exc ⟨.unresolved q, 0, 0⟩) →
        parse N text = .exc ⟨.unresolved q, 0, 0⟩ := by
      intro ls hl h
      obtain ⟨z, hz, hr⟩ := parse_loose hl (N := N) (by omega)
      rw [h z hz] at hr
      rcases parse_verdict (N := N) (text := text) (by omega) with ⟨⟨t, h1⟩ | ⟨q', h1⟩, _⟩ | ⟨e', h1, h2⟩ | ⟨h1, _⟩
      · rw [h1] at hr; exact hr.elim
      · rw [h1] at hr
        have hr : Kind.unresolved q' = Kind.unresolved q := hr
        injection hr with hr
        rw [h1, hr]
      · rw [h1] at hr; exact absurd hr (refused_kind h2 q)
      · rw [h1] at hr; exact hr.elim
    have hi := (declOK_iff ds).mpr hn
    rcases hl with hl | ⟨ds', name, body, rfl, hl⟩
    · exact key hl fun z hz => w_unresolved hz hw hi hu (by have := loose_length hl; omega)
    · refine key hl fun z hz => ?_
      have := loose_length hl
      rw [w_open_parse hz hw hi (by omega)]
      exact w_unresolved hz hw hi hu (by rw [open_length]; omega)
  | nil =>
    refine Or.inr ⟨rfl, ?_⟩
    obtain ⟨t, ht, _⟩ := (C49_accepted_iff hN).mpr ⟨ds, hw, (consistent_iff ds).mpr ⟨hn, hu⟩, rfl, hl⟩
    exact ⟨t, ht⟩

/-- **C67, the places and the grammar.**  The texts that the places admit are those that read as well formed
declarations whose field numbers are good and distinct. -/
theorem C67_whole_iff (text : Bytes) : Whole text ↔ ∃ ds, (∀ d ∈ ds, Decl.WF d) ∧ Numbered ds ∧ ReadsAs text ds := by
  constructor
  · intro h
    have hN := Nat.lt_succ_self text.length
    rcases proto_verdict hN with ⟨t, h1, _⟩ | ⟨e, _, h1⟩ | h1 | ⟨_, h1⟩
    · have hr := rel_parseProto (same_lex (text.length + 1) text.length) (text.length + 1) (text.length + 1) Tree.empty
        Tree.empty (start (In.open text)) (start text) rfl ⟨rfl, rfl, rfl, sees_open text, Nat.le_refl _⟩
      rw [h1] at hr
      cases hp : parseProto anext (text.length + 1) (text.length + 1) Tree.empty (start text) with
      | ok t' =>
        obtain ⟨ds, d1, d2, _, d4⟩ := s_proto _ _ _ _ rfl t' hp
        exact ⟨ds, d1, (declOK_iff ds).mp d2, d4⟩
      | exc e => rw [hp] at hr; exact hr.elim
      | runtime => rw [hp] at hr; exact hr.elim
      | fuel => rw [hp] at hr; exact hr.elim
    · cases verdict_unique (o := .accepted) (o' := .failed _) h h1
    · have hp := parse_after (text.length + 1) text
      rw [h1] at hp
      have := parse_safe (text.length + 1) text
      rw [hp] at this
      exact this.elim
    · cases verdict_unique (o := .accepted) (o' := .endless) h h1
  · rintro ⟨ds, hw, hn, hl⟩
    have hN : text.length + 1 < text.length + 2 := by omega
    rcases parse_verdict (N := text.length + 2) (text := text) (by omega) with ⟨_, h⟩ | ⟨e, h, h2⟩ | ⟨h, _⟩
    · exact h
    · rcases reads_outcome hw hn hl hN with ⟨q, _, h1⟩ | ⟨_, t, h1⟩ <;> rw [h] at h1
      · injection h1 with h1; rw [h1] at h2; exact absurd rfl (refused_kind h2 q)
      · cases h1
    · rcases reads_outcome hw hn hl hN with ⟨q, _, h1⟩ | ⟨_, t, h1⟩ <;> rw [h] at h1 <;> cases h1

/-- **C67.**  A schema is refused because a type is not found exactly when it reads as well formed declarations whose
field numbers are good and distinct, and the type of one of the fields is no message of the file; the first such type is
named, and the position is 0:0. -/
theorem C67_unresolved_iff {N : Nat} {text : Bytes} {q : Bytes} {line col : Nat} (hN : text.length + 1 < N) :
    parse N text = .exc ⟨.unresolved q, line, col⟩ ↔
      line = 0 ∧ col = 0 ∧ ∃ ds, (∀ d ∈ ds, Decl.WF d) ∧ Numbered ds ∧ (unknownTypes ds).head? = some q ∧
        ReadsAs text ds := by
  constructor
  · intro h
    rcases parse_verdict (N := N) (text := text) (by omega) with ⟨h1, h2⟩ | ⟨e', h1, h2⟩ | ⟨h1, _⟩
    · obtain ⟨ds, d1, d2, d3⟩ := (C67_whole_iff text).mp h2
      rcases reads_outcome d1 d2 d3 hN with ⟨q', u, k⟩ | ⟨u, t, k⟩ <;> rw [h] at k
      · injection k with k
        injection k with k1 k2 k3
        injection k1 with k1
        subst k1
        exact ⟨k2, k3, ds, d1, d2, u, d3⟩
      · cases k
    · rw [h] at h1
      injection h1 with h1
      subst h1
      exact absurd rfl (refused_kind h2 q)
    · rw [h] at h1; cases h1
  · rintro ⟨rfl, rfl, ds, d1, d2, u, d3⟩
    rcases reads_outcome d1 d2 d3 hN with ⟨q', u', k⟩ | ⟨u', _⟩
    · rw [u] at u'
      injection u' with u'
      rw [u']
      exact k
    · rw [u'] at u; cases u

/-! ### Errors are not late -/

theorem after_append : ∀ (ls ls' : List Lexeme) (p : Place),
    p.after (ls ++ ls') = (p.after ls).bind fun q => q.after ls'
  | [], _, _ => rfl
  | l :: ls, ls', p => by
    rw [List.cons_append, Place.after, Place.after]
    split
    · exact after_append ls ls' _
    · rfl

theorem live_back {p q : Place} {l : Lexeme} (h : p.next l = .ok q) (hq : q.live) : p.live := by
  have ite1 : ∀ {P : Prop} [Decidable P] {k : Kind} {a q : Place}, (if P then Except.ok a else .error k) = .ok q →
      a = q := by
    intro P _ k a q h
    split at h
    · injection h
    · cases h
  have fld : ∀ {u : List (Int × Bytes)} {i : Int × Bytes} {l : Lexeme} {q : Place}, Place.field u i l = .ok q → u.lookup i.1 = none := by
    intro u i l q h
    unfold Place.field at h
    split at h
    · cases h
    · split at h
      · cases h
      · assumption
  cases p with
  | top => trivial
  | synEqual => trivial
  | synText => trivial
  | synEnd v =>
    simp only [Place.next] at h
    split at h
    · cases h
    · split at h
      · cases h
      · rename_i hv
        exact Classical.not_not.mp hv
  | pkgName => trivial
  | pkgEnd => trivial
  | msgName => trivial
  | msgBegin => trivial
  | optName w =>
    cases w with
    | file => trivial
    | message u => trivial
    | field u i =>
      simp only [Place.next] at h
      split at h
      · injection h with h; subst h; exact hq
      · have := ite1 h; subst this; exact hq
  | optEqual w => have := ite1 h; subst this; exact hq
  | optValue w => have := ite1 h; subst this; exact hq
  | optEnd w =>
    cases w with
    | file => trivial
    | message u => trivial
    | field u i =>
      simp only [Place.next] at h
      split at h
      · injection h with h; subst h; exact hq
      · split at h
        · injection h with h; subst h; exact hq
        · have := ite1 h; subst this; exact hq
  | body u => trivial
  | type u => have := ite1 h; subst this; exact hq
  | name u => have := ite1 h; subst this; exact hq
  | equal u n => have := ite1 h; subst this; exact hq
  | number u n =>
    simp only [Place.next] at h
    split at h
    · split at h
      · rename_i hg
        injection h with h
        subst h
        exact ⟨_, hg, hq⟩
      · cases h
    · cases h
  | tail u i =>
    simp only [Place.next] at h
    split at h
    · injection h with h; subst h; exact hq
    · exact fld h
  | close u i => exact fld h

theorem live_after : ∀ (ls : List Lexeme) (p q : Place), p.after ls = some q → q.live → p.live
  | [], p, q, h, hq => by injection h with h; subst h; exact hq
  | l :: ls, p, q, h, hq => by
    rw [Place.after] at h
    split at h
    · rename_i p' hp
      exact live_back hp (live_after ls p' q h hq)
    · cases h

theorem atEnd_live {q : Place} (h : q.atEnd = none) : q.live := by
  cases q with
  | optEnd w => cases w <;> cases h
  | top => trivial
  | body u => trivial
  | _ => cases h

/-- Lexical elements that lead from a place to the end of the declaration. -/
theorem live_finish {p : Place} (h : p.live) : ∃ ls : List Lexeme, (∀ l ∈ ls, l.Valid) ∧ p.after ls = some .top := by
  have cons : ∀ {p q : Place} (l : Lexeme), l.Valid → p.next l = .ok q →
      (∃ ls : List Lexeme, (∀ l ∈ ls, l.Valid) ∧ q.after ls = some .top) →
      ∃ ls : List Lexeme, (∀ l ∈ ls, l.Valid) ∧ p.after ls = some .top := by
    rintro p q l hl hn ⟨ls, h1, h2⟩
    refine ⟨l :: ls, fun x hx => ?_, by rw [Place.after, hn]; exact h2⟩
    rcases List.mem_cons.mp hx with rfl | hx
    · exact hl
    · exact h1 x hx
  have sym : ∀ {b : Byte}, b ∈ b!"={};,<>[]" → (Lexeme.sym b).Valid := fun h => h
  have wa : (Lexeme.word b!"a").Valid := .one ⟨97, [], rfl, by decide, by simp⟩
  have wi : (Lexeme.word b!"int32").Valid := reserved_valid (by decide)
  have top : ∃ ls : List Lexeme, (∀ l ∈ ls, l.Valid) ∧ Place.top.after ls = some .top := ⟨[], by simp, rfl⟩
  have body : ∀ u : List (Int × Bytes), ∃ ls : List Lexeme, (∀ l ∈ ls, l.Valid) ∧ (Place.body u).after ls = some .top := fun u =>
    cons (.sym c!"}") (sym (by decide)) rfl top
  have close : ∀ (u : List (Int × Bytes)) (i : Int × Bytes), u.lookup i.1 = none →
      ∃ ls : List Lexeme, (∀ l ∈ ls, l.Valid) ∧ (Place.close u i).after ls = some .top := fun u i hi =>
    cons (.sym c!";") (sym (by decide)) (by simp only [Place.next, Place.field]; rw [if_neg (by simp), hi]) (body _)
  have tail : ∀ (u : List (Int × Bytes)) (i : Int × Bytes), u.lookup i.1 = none →
      ∃ ls : List Lexeme, (∀ l ∈ ls, l.Valid) ∧ (Place.tail u i).after ls = some .top := fun u i hi =>
    cons (.sym c!";") (sym (by decide)) (by simp only [Place.next, Place.field]; rw [if_neg (by decide), if_neg (by simp), hi]) (body _)
  have number : ∀ u : List (Int × Bytes), Left u →
      ∀ n, ∃ ls : List Lexeme, (∀ l ∈ ls, l.Valid) ∧ (Place.number u n).after ls = some .top := by
    rintro u ⟨i, hg, hi⟩ n
    have hb : 0 < i ∧ i < 0x1FFFFFFF := by
      simp only [goodNumber, Bool.and_eq_true, decide_eq_true_eq] at hg
      exact hg.1.1
    obtain ⟨h1, h2⟩ := hb
    have e : decInt i = decNat i.toNat := by rw [decInt, if_neg (by omega)]; congr 1; omega
    have hv : asInt32 (Proto.number (decInt i)) = i := by
      rw [e, number_decNat, C45_as_written_partial (by omega)]; omega
    refine cons (.int (decInt i)) (decInt_digits h1) (q := .tail u (i, n)) ?_ (tail u (i, n) hi)
    simp only [Place.next]
    rw [hv, if_pos hg]
  have equal : ∀ u : List (Int × Bytes), Left u →
      ∀ n, ∃ ls : List Lexeme, (∀ l ∈ ls, l.Valid) ∧ (Place.equal u n).after ls = some .top := fun u hu n =>
    cons (.sym c!"=") (sym (by decide)) rfl (number u hu n)
  have name : ∀ u : List (Int × Bytes), Left u →
      ∃ ls : List Lexeme, (∀ l ∈ ls, l.Valid) ∧ (Place.name u).after ls = some .top := fun u hu =>
    cons (.word b!"a") wa rfl (equal u hu _)
  have optEnd : ∀ w : Where, w.live → ∃ ls : List Lexeme, (∀ l ∈ ls, l.Valid) ∧ (Place.optEnd w).after ls = some .top := by
    intro w hw
    cases w with
    | file => exact cons (.sym c!";") (sym (by decide)) rfl top
    | message u => exact cons (.sym c!";") (sym (by decide)) rfl (body u)
    | field u i => exact cons (.sym c!"]") (sym (by decide)) rfl (close u i hw)
  have optValue : ∀ w : Where, w.live →
      ∃ ls : List Lexeme, (∀ l ∈ ls, l.Valid) ∧ (Place.optValue w).after ls = some .top := fun w hw =>
    cons (.word b!"a") wa rfl (optEnd w hw)
  have optEqual : ∀ w : Where, w.live →
      ∃ ls : List Lexeme, (∀ l ∈ ls, l.Valid) ∧ (Place.optEqual w).after ls = some .top := fun w hw =>
    cons (.sym c!"=") (sym (by decide)) rfl (optValue w hw)
  have synEnd : ∃ ls : List Lexeme, (∀ l ∈ ls, l.Valid) ∧ (Place.synEnd b!"proto3").after ls = some .top :=
    cons (.sym c!";") (sym (by decide)) rfl top
  have synText : ∃ ls : List Lexeme, (∀ l ∈ ls, l.Valid) ∧ Place.synText.after ls = some .top :=
    cons (.str b!"proto3") (by show _ ∧ _ ∧ _; decide) rfl synEnd
  cases p with
  | top => exact top
  | synEqual => exact cons (.sym c!"=") (sym (by decide)) rfl synText
  | synText => exact synText
  | synEnd v => have h : v = b!"proto3" := h; subst h; exact synEnd
  | pkgName => exact cons (.word b!"a") wa rfl (cons (.sym c!";") (sym (by decide)) rfl top)
  | pkgEnd => exact cons (.sym c!";") (sym (by decide)) rfl top
  | msgName => exact cons (.word b!"a") wa rfl (cons (.sym c!"{") (sym (by decide)) rfl (body []))
  | msgBegin => exact cons (.sym c!"{") (sym (by decide)) rfl (body [])
  | optName w =>
    refine cons (q := .optEqual w) (.word b!"a") wa ?_ (optEqual w h)
    cases w <;> rfl
  | optEqual w => exact optEqual w h
  | optValue w => exact optValue w h
  | optEnd w => exact optEnd w h
  | body u => exact body u
  | type u => exact cons (.word b!"int32") wi rfl (name u h)
  | name u => exact name u h
  | equal u n => exact equal u h n
  | number u n => exact number u h n
  | tail u i => exact tail u i h
  | close u i => exact close u i h

theorem Before.spaced {ls : List Lexeme} {pre tail : Bytes} (h : Before ls pre tail) (t : Bytes) :
    Before ls pre (32 :: t) := by
  induction h with
  | gap h => exact .gap h
  | @lexeme l ls g rest tail hg hl he h ih =>
    refine .lexeme hg hl ?_ ih
    cases rest with
    | nil => exact ends_space l t
    | cons c rest => cases l <;> exact he

theorem Before.layout {ls ls' : List Lexeme} {pre tail : Bytes} (h : Before ls pre tail) (k : LooseLayout ls' tail) :
    LooseLayout (ls ++ ls') (pre ++ tail) := by
  induction h with
  | @gap g tail h =>
    cases k with
    | @done g' e k1 k2 => rw [← List.append_assoc]; exact .done (h.append k1) k2
    | @next l ls g' rest k1 k2 k3 k4 =>
      rw [show g ++ (g' ++ l.text ++ rest) = (g ++ g') ++ l.text ++ rest by simp]
      exact .next (h.append k1) k2 k3 k4
  | @lexeme l ls g rest tail hg hl he h ih =>
    rw [List.append_assoc]
    exact .next hg hl he (ih k)

theorem reads_prefix {bs z : Bytes} {ls : List Lexeme} (h : Reads bs ls z) : ∀ {ls' : List Lexeme}, LooseLayout ls' bs →
    ∃ ls'', ls' = ls ++ ls'' := by
  induction h with
  | nil => intro ls' _; exact ⟨ls', rfl⟩
  | @cons s s1 s2 l ls h t ih =>
    intro ls' k
    obtain ⟨g, h1, h2, h3, h4⟩ := h
    have e1 := alex_looseGap h1 (l.text ++ s1)
    rw [alex_lexeme h3 h4, ← List.append_assoc, ← h2] at e1
    cases k with
    | done k1 k2 =>
      obtain ⟨v, r, hz⟩ := fin_end ⟨_, _, k1, k2, rfl⟩
      rw [e1] at hz
      injection hz with hz
      exact absurd hz (tok_not_eof h3 (v := l.tok.2) rfl)
    | @next l' ls' g' rest k1 k2 k3 k4 =>
      rw [List.append_assoc, alex_looseGap k1, alex_lexeme k2 k3] at e1
      injection e1 with e1 e2 e3
      subst e3
      obtain ⟨ls'', k⟩ := ih k4
      rw [k, tok_inj h3 k2 (by rw [Prod.ext_iff]; exact ⟨e1.symm, e2.symm⟩)]
      exact ⟨ls'', rfl⟩

/-- **C67, errors are not late.**  What comes before the place of an error can be continued to a whole schema, exactly
when the place is live; see `Place.live` for the two reasons that are noticed too late. -/
theorem C67_viable {ls : List Lexeme} {pre tail : Bytes} {q : Place} (hb : Before ls pre tail)
    (ha : Place.top.after ls = some q) : q.live ↔ ∃ r, Whole (pre ++ 32 :: r) := by
  constructor
  · intro h
    obtain ⟨ls', h1, h2⟩ := live_finish h
    refine ⟨render ls', ls ++ ls', .top, (hb.spaced (render ls')).layout ?_, ?_, rfl⟩
    · exact loose_of_layout (layout_space h1 (g := [32]) (.space (by decide) .nil))
    · rw [after_append, ha]; exact h2
  · rintro ⟨r, ls', q', h1, h2, h3⟩
    obtain ⟨g, _, g2⟩ := before_reads (hb.spaced r)
    obtain ⟨ls'', e⟩ := reads_prefix g2 h1
    rw [e, after_append, ha] at h2
    exact live_after ls'' q q' h2 (atEnd_live h3)

/-- **C67.**  And no text that continues it with the offender is whole: the error is there. -/
theorem C67_offender {text : Bytes} {ls : List Lexeme} {pre : Bytes} {x : Offender} {r : Bytes} {q : Place} {k : Kind}
    (ho : Offends text ls pre x r) (ha : Place.top.after ls = some q) (hk : q.error x = some k) {r' : Bytes}
    (hr : x.Ends r') : Refused (pre ++ (x.text ++ r')) ⟨k, lineAt pre, colAt pre⟩ ∧ ¬ Whole (pre ++ (x.text ++ r')) := by
  obtain ⟨b, t, hx, _⟩ := offender_starts ho.valid []
  rw [List.append_nil] at hx
  have hb : Before ls pre (x.text ++ r') := by
    have := ho.before
    rw [hx, List.cons_append] at this ⊢
    exact this.retail
  have : Refused (pre ++ (x.text ++ r')) ⟨k, lineAt pre, colAt pre⟩ :=
    Or.inl ⟨ls, pre, x, r', q, ⟨rfl, hb, ho.valid, hr⟩, ha, hk, rfl, rfl⟩
  refine ⟨this, fun h => ?_⟩
  cases verdict_unique (o := .accepted) (o' := .failed _) h this

/-! ### Cases -/

/-- A field without its number. -/
example : Refused b!"message M {\n  int32 a;\n}\n" ⟨.expectedEqual, 2, 10⟩ :=
  (C67_refused_iff (N := 60) (by decide)).mp ⟨by decide +kernel, by simp⟩
/-- The place and the offender. -/
example : Place.top.after [.word b!"message", .word b!"M", .sym c!"{", .word b!"int32", .word b!"a"] =
    some (.equal [] b!"a") ∧ (Place.equal [] b!"a").error (.lexeme (.sym c!";")) = some .expectedEqual := by decide +kernel
/-- At the end of the file. -/
example : Refused b!"message M" ⟨.missingBody, 1, 9⟩ :=
  (C67_refused_iff (N := 60) (by decide)).mp ⟨by decide +kernel, by simp⟩
/-- A type that is no message. -/
example : ∃ ds, (∀ d ∈ ds, Decl.WF d) ∧ Numbered ds ∧ (unknownTypes ds).head? = some b!"p.X" ∧ ReadsAs sampleUnknown ds :=
  ((C67_unresolved_iff (N := 60) (line := 0) (col := 0) (by decide)).mp (by decide +kernel)).2.2
/-- A comment at the end, after declarations. -/
example : Endless b!"message M { } // end" := by
  refine ⟨[.word b!"message", .word b!"M", .sym c!"{", .sym c!"}"], .top,
    ⟨b!"message M { } ", b!" end", Or.inl ⟨?_, rfl, by decide⟩⟩, by decide +kernel⟩
  have w : ∀ n ∈ [b!"message", b!"M"], (Lexeme.word n).Valid := by
    intro n hn
    simp only [List.mem_cons, List.not_mem_nil, or_false] at hn
    rcases hn with rfl | rfl
    · exact reserved_valid (by decide)
    · exact .one ⟨77, [], rfl, by decide, by simp⟩
  have sp : LooseGap b!" " := .space (by decide) .nil
  exact .lexeme (g := []) (rest := b!" M { } ") .nil (w _ (by simp)) (ends_space _ _)
    (.lexeme (g := b!" ") (rest := b!" { } ") sp (w _ (by simp)) (ends_space _ _)
      (.lexeme (l := .sym c!"{") (g := b!" ") (rest := b!" } ") sp (show _ ∈ _ by decide) trivial
        (.lexeme (l := .sym c!"}") (g := b!" ") (rest := b!" ") sp (show _ ∈ _ by decide) trivial (.gap sp))))
/-- The number is used already, which is noticed at the semicolon: what comes before cannot be continued. -/
example : Place.top.after [.word b!"message", .word b!"M", .sym c!"{", .word b!"int32", .word b!"a", .sym c!"=",
      .int b!"1", .sym c!";", .word b!"int32", .word b!"b", .sym c!"=", .int b!"1"] = some (.tail [(1, b!"a")] (1, b!"b")) ∧
    (Place.tail [(1, b!"a")] (1, b!"b")).error (.lexeme (.sym c!";")) = some (.sameIndex b!"a" b!"b") ∧
    ¬ (Place.tail [(1, b!"a")] (1, b!"b")).live ∧ (Place.number [(1, b!"a")] b!"b").live :=
  ⟨by decide +kernel, by decide +kernel, by simp [Place.live], 2, by decide, by decide⟩

end PG.Proto
