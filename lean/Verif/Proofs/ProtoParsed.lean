import Verif.Spec.CxxParse
import Verif.Proofs.ProtoParseRun
/-
`Proto3::parse` (proto3.cc:773-809) and the constructor of `Tokenizer`, executed.
-/
set_option autoImplicit false
namespace PG.Cxx.Throw
open PG.Proto Schema

/-! ### The constructor of `Tokenizer` -/

theorem lexNew_runs (σ : Bool) (n : Nat) (i : In) (t : Schema.Token) :
    run (lexNewLib σ) n lexNewFun [.dom (.input i)] (none, t, none) = .ok (.void, [.dom (.input i)], (some i, t, some false)) := rfl

/-! ### The library of `parse` -/

section
variable {s : Bool} {N : Nat} (w w' : Parsing) (m : Message) (f : Field) (t : TypeInfo) (i : In) (x : Bytes) (b : Bool) (k : Nat)
local notation "B" => parseBase s
local notation "L" => parseLib s N
theorem prs_base : (L).base = B := (rfl)
theorem prs_signed : (B).signed = s := (rfl)
theorem prs_get : (B).get n!"this" w = some (.dom (.self w)) := (rfl)
theorem prs_get1 : (B).get n!"nullptr" w = none := (rfl)
theorem prs_get2 : (B).get n!"TYPE_MESSAGE" w = none := (rfl)
theorem prs_get3 : (B).constant [n!"nullptr"] = some (.dom .null) := (rfl)
theorem prs_get4 : (B).constant [n!"TYPE_MESSAGE"] = some (.dom (.ftype .message)) := (rfl)
theorem prs_get5 : (B).constant [n!"std", n!"ios", n!"skipws"] = some (.dom .skipBit) := (rfl)
theorem prs_set : (B).set n!"this" (.dom (.self w)) w' = some w := (rfl)
theorem prs_messages : (B).member (.dom (.self w)) n!"messages" w' = some (.arr (w.tree.messages.map fun m => .dom (.msg m))) := (rfl)
theorem prs_fileName : (B).member (.dom (.self w)) n!"fileName" w' = some (.str w.fileName) := (rfl)
theorem prs_fields : (B).member (.dom (.msg m)) n!"fields" w' = some (.arr (m.fields.map fun f => .dom (.field f))) := (rfl)
theorem prs_type : (B).member (.dom (.field f)) n!"type" w' = some (.dom (.type f.type)) := (rfl)
theorem prs_id : (B).member (.dom (.type t)) n!"id" w' = some (.dom (.ftype t.id)) := (rfl)
theorem prs_ref : (B).member (.dom (.type t)) n!"ref" w' = some (.dom (.ref t.ref)) := (rfl)
theorem prs_qname : (B).member (.dom (.type t)) n!"qname" w' = some (.str t.qname) := (rfl)
theorem messagesOf_map (l : List Message) : messagesOf (l.map fun m => .dom (.msg m)) = some l := by
  induction l with
  | nil => rfl
  | cons m l ih => simp [messagesOf, ih]
theorem fieldsOf_map (l : List Field) : fieldsOf (l.map fun m => .dom (.field m)) = some l := by
  induction l with
  | nil => rfl
  | cons m l ih => simp [fieldsOf, ih]
theorem prs_uMessages (l : List Message) : (B).update (.dom (.self w)) n!"messages" (.arr (l.map fun m => .dom (.msg m))) =
    some (.dom (.self { w with tree := { w.tree with messages := l } })) := by
  show (messagesOf _).map _ = _
  rw [messagesOf_map]; rfl
theorem prs_uFileName : (B).update (.dom (.self w)) n!"fileName" (.str x) = some (.dom (.self { w with fileName := x })) := (rfl)
theorem prs_uFields (l : List Field) : (B).update (.dom (.msg m)) n!"fields" (.arr (l.map fun m => .dom (.field m))) =
    some (.dom (.msg { m with fields := l })) := by
  show (fieldsOf _).map _ = _
  rw [fieldsOf_map]; rfl
theorem prs_uType : (B).update (.dom (.field f)) n!"type" (.dom (.type t)) = some (.dom (.field { f with type := t })) := (rfl)
theorem prs_uRef (r : Option Nat) : (B).update (.dom (.type t)) n!"ref" (.dom (.ref r)) = some (.dom (.type { t with ref := r })) := (rfl)
theorem prs_deref : (B).unary n!"*" (.dom (.self w)) w' = some (.dom .object) := (rfl)
theorem prs_mask : (B).binary n!"&" (.dom (.flags b)) (.dom .skipBit) w = some (.bool b, w) := (rfl)
theorem prs_ne (t u : FType) : (B).binary n!"!=" (.dom (.ftype t)) (.dom (.ftype u)) w = some (.bool (decide (t ≠ u)), w) := (rfl)
theorem prs_neNull (r : Option Nat) : (B).binary n!"!=" (.dom (.ref r)) (.dom .null) w = some (.bool (decide (r ≠ none)), w) := (rfl)
theorem prs_eqNull (r : Option Nat) : (B).binary n!"==" (.dom (.ref r)) (.dom .null) w = some (.bool (decide (r = none)), w) := (rfl)
theorem prs_aNull (r : Option Nat) : (B).assign (.dom (.ref r)) (.dom .null) = some (.dom (.ref none)) := (rfl)
theorem prs_aShared (r : Option Nat) : (B).assign (.dom (.ref r)) (.dom (.shared k)) = some (.dom (.ref (some k))) := (rfl)
theorem prs_aMsg (n : Message) : (B).assign (.dom (.msg m)) (.dom (.msg n)) = some (.dom (.msg n)) := (rfl)
theorem prs_aField (n : Field) : (B).assign (.dom (.field f)) (.dom (.field n)) = some (.dom (.field n)) := (rfl)
theorem prs_end : initial (B) n!"std :: istream_iterator < char >" none w = some (.dom .theEnd) := (rfl)
theorem prs_flags : initial (B) n!"std :: ios_base :: fmtflags" (some (.dom (.flags b))) w = some (.dom (.flags b)) := (rfl)
theorem prs_noskip : (L).function [n!"std", n!"noskipws"] w [.dom .stream] = .ok (.dom .stream, [], { w with skipws := false }) := (rfl)
theorem prs_skip : (L).function [n!"std", n!"skipws"] w [.dom .stream] = .ok (.dom .stream, [], { w with skipws := true }) := (rfl)
theorem prs_begin : (L).function [n!"std :: istream_iterator < char >"] w [.dom .stream] =
    .ok (.dom (.begin (if w.skipws then w.text.filter fun c => !isSpace c else w.text)), [], w) := (rfl)
theorem prs_input : (L).function [n!"InputStream < std :: istream_iterator < char > >"] w [.dom (.begin x), .dom .theEnd] =
    .ok (.dom (.input (In.open x)), [], w) := (rfl)
theorem prs_tokens : (L).function [n!"Tokenizer < std :: istream_iterator < char > >"] w [.dom (.input i)] = .ok (.dom (.tokens i), [], w) := (rfl)
theorem prs_context (j : In) : (L).function [n!"ProtoContext"] w [.dom (.tokens i), .dom .object, .dom (.input j)] =
    .ok (.dom (.ctx i), [], { w with tree := { w.tree with package := [] } }) := (rfl)
theorem prs_proto : (L).function [n!"parseProto"] w [.dom (.ctx i)] =
    (ranOf (parseProto (Proto.lex N) N N w.tree { cur := Tok.default, ungot := false, src := i })).bind fun t =>
      .ok (.void, [], { w with tree := t }) := (rfl)
theorem prs_find : (L).function [n!"findMessage"] w [.dom (.ctx i), .str x] =
    match findMessage w.tree.messages x with
    | none => .ok (.dom .null, [], w)
    | some i => .ok (.dom (.shared i), [], w) := (rfl)
theorem prs_exception : (L).function [n!"exception"] w [.str x] = .ok (.dom (.exc (.exception x 0 0)), [], w) := (rfl)
theorem prs_throw (e : Thrown) : (L).function [n!"throw"] w [.dom (.exc e)] = .thrown e := (rfl)
theorem prs_mFlags : (L).method n!"flags" w [.dom .stream] = .ok (.dom (.flags w.skipws), [], w) := (rfl)
theorem prs_caught (l c : Int) : (L).caught n!"exception &" (.exception x l c) w = some (.dom (.exc (.exception x l c)), w) := (rfl)
theorem prs_caught2 : (L).caught n!"exception &" (.runtime x) w = none := (rfl)
end
attribute [cxt] prs_base prs_signed prs_get prs_get1 prs_get2 prs_get3 prs_get4 prs_get5 prs_set prs_messages prs_fileName prs_fields prs_type
  prs_id prs_ref prs_qname prs_uMessages prs_uFileName prs_uFields prs_uType prs_uRef prs_deref prs_mask prs_ne prs_neNull prs_eqNull prs_aNull
  prs_aShared prs_aMsg prs_aField prs_end prs_flags prs_noskip prs_skip prs_begin prs_input prs_tokens prs_context prs_proto prs_exception prs_throw prs_mFlags
  prs_caught prs_caught2

/-! ### Vectors -/

theorem at_append {α β : Type} (g : α → β) (pre post : List α) (a : α) : ((pre ++ a :: post).map g)[pre.length]? = some (g a) := by
  simp
theorem set_append {α β : Type} (g : α → β) (pre post : List α) (a b : α) :
    ((pre ++ a :: post).map g).set pre.length (g b) = (pre ++ b :: post).map g := by
  simp

/-! ### The loops over messages and fields -/

/-- The variables of `parse` after those of the loops. -/
def parseVars (i : In) (b : Bool) (x fn : Bytes) : List (List (Name × Val SVal)) :=
  [[(n!"ctx", .dom (.ctx i)), (n!"tok", .dom (.tokens i)), (n!"is", .dom (.input i)), (n!"begin", .dom (.begin x)), (n!"end", .dom .theEnd),
    (n!"flags", .dom (.flags b))], [(n!"input", .dom .stream), (n!"fileName", .str fn)]]

variable {s : Bool} {N : Nat}

/-- Fields are resolved in place: the messages before the loop are searched for the same names. -/
def Alike (l msgs : List Message) : Prop := ∀ q, findMessage l q = findMessage msgs q

theorem findMessage_fields (pre post : List Message) (m : Message) (fs : List Field) (q : Bytes) :
    findMessage (pre ++ { m with fields := fs } :: post) q = findMessage (pre ++ m :: post) q := by
  induction pre with
  | nil => rfl
  | cons p pre ih => simp only [List.cons_append, findMessage, ih]

theorem alike_fields {pre post msgs : List Message} {m : Message} (fs : List Field) (h : Alike (pre ++ m :: post) msgs) :
    Alike (pre ++ { m with fields := fs } :: post) msgs := by
  intro q
  rw [← h q, findMessage_fields]

/-- The condition of the loop over the fields. -/
def fieldsTest : Expr := .binary n!"!=" (.name n!"field'") (.call (.member (.member (.index (.member (.name n!"this") n!"messages") (.name
  n!"message'")) n!"fields") n!"size") .nil)

theorem fields_test (w : Parsing) (i : In) (b : Bool) (x fn : Bytes) (m : Message) (j k : Nat)
    (h : (w.tree.messages.map fun m => (.dom (.msg m) : Val SVal))[k]? = some (.dom (.msg m))) :
    test (parseLib s N) fieldsTest
      ⟨[(n!"field'", .int .u64 j)] :: [] :: [(n!"message'", .int .u64 k)] :: parseVars i b x fn, w⟩ =
      .ok (decide (¬ (j : Int) = m.fields.length), ⟨[(n!"field'", .int .u64 j)] :: [] :: [(n!"message'", .int .u64 k)] :: parseVars i b x fn, w⟩) := by
  cxp [fieldsTest, parseVars, h, List.length_map]

theorem fields_step (w : Parsing) (i : In) (b : Bool) (x fn : Bytes) (j k : Nat) (h : j + 1 < 18446744073709551616) :
    perform (parseLib s N) (.incr n!"++" true (.name n!"field'"))
      ⟨[(n!"field'", .int .u64 j)] :: [] :: [(n!"message'", .int .u64 k)] :: parseVars i b x fn, w⟩ =
      .ok ⟨[(n!"field'", .int .u64 (j + 1 : Nat))] :: [] :: [(n!"message'", .int .u64 k)] :: parseVars i b x fn, w⟩ := by
  have e : IT.fit .u64 ((j : Int) + 1) = some ((j + 1 : Nat) : Int) := by
    show some (_ % _) = _
    congr 1
    omega
  cxp [parseVars, e, convert_self]

theorem fields_loop {β : Type} (g n : Nat) (w : Parsing) (i : In) (b : Bool) (x fn : Bytes) (pre post msgs : List Message) (m : Message)
    (fpre frest : List Field) (hn : frest.length < n) (hw : w.tree.messages = pre ++ m :: post) (hm : m.fields = fpre ++ frest)
    (ha : Alike w.tree.messages msgs) (hl : m.fields.length < 18446744073709551616)
    (K : Flow SVal × St SVal Parsing → Ran β) (G : List Field → Ran β)
    (hK : ∀ j fs, K (.next, ⟨[(n!"field'", j)] :: [] :: [(n!"message'", .int .u64 pre.length)] :: parseVars i b x fn,
      { w with tree := { w.tree with messages := pre ++ { m with fields := fs } :: post } }⟩) = G fs) :
    (iterate (test (parseLib s N) fieldsTest)
      (exec (parseLib s N) g parseFunBody1) (perform (parseLib s N) (.incr n!"++" true (.name n!"field'"))) n
      ⟨[(n!"field'", .int .u64 fpre.length)] :: [] :: [(n!"message'", .int .u64 pre.length)] :: parseVars i b x fn, w⟩).bind K =
    (ranOf (resolveFields msgs frest)).bind fun fs => G (fpre ++ fs) := by
  have e1 := at_append (fun m => (.dom (.msg m) : Val SVal)) pre post m
  rw [← hw] at e1
  induction frest generalizing n w m fpre with
  | nil =>
    obtain ⟨n, rfl⟩ : ∃ m, n = m + 1 := ⟨n - 1, by simp at hn; omega⟩
    rw [iterate_done (s1 := ⟨[(n!"field'", .int .u64 fpre.length)] :: [] :: [(n!"message'", .int .u64 pre.length)] :: parseVars i b x fn, w⟩)
      (by rw [fields_test _ _ _ _ _ m _ _ e1, hm]; simp), Ran.bind_ok]
    refine Eq.trans ?_ ((hK (.int .u64 fpre.length) (fpre ++ [])).trans rfl)
    rw [← hm, ← hw]
  | cons f frest ih =>
    obtain ⟨n, rfl⟩ : ∃ m, n = m + 1 := ⟨n - 1, by simp at hn; omega⟩
    have e2 := at_append (fun m => (.dom (.field m) : Val SVal)) fpre frest f
    rw [← hm] at e2
    have t1 := (fields_test (s := s) (N := N) w i b x fn m fpre.length pre.length e1).trans
      (by rw [hm]; simp; omega : _ = Ran.ok (true, (⟨[(n!"field'", .int .u64 fpre.length)] :: [] :: [(n!"message'", .int .u64 pre.length)] :: parseVars i b x fn, w⟩ : St SVal Parsing)))
    rw [resolveFields]
    by_cases h1 : f.type.id ≠ .message ∨ f.type.ref ≠ none
    · rw [if_pos h1]
      have hb : exec (parseLib s N) g parseFunBody1 ⟨[(n!"field'", .int .u64 fpre.length)] :: [] :: [(n!"message'", .int .u64 pre.length)] :: parseVars i b x fn, w⟩ =
          .ok (.continue, ⟨[(n!"field'", .int .u64 fpre.length)] :: [] :: [(n!"message'", .int .u64 pre.length)] :: parseVars i b x fn, w⟩) := by
        by_cases h2 : f.type.id = .message
        · have h3 : f.type.ref ≠ none := h1.resolve_left fun h => h h2
          cxp [parseFunBody1, parseVars, e1, e2, eq_true h2, eq_false h3]
        · cxp [parseFunBody1, parseVars, e1, e2, eq_false h2]
      rw [iterate_continue t1 hb (fields_step _ _ _ _ _ _ _ (by rw [hm] at hl; simp at hl; omega))]
      rw [show fpre.length + 1 = (fpre ++ [f]).length by simp]
      refine (ih n w m (fpre ++ [f]) (by simp at hn; omega) hw (by rw [hm]; simp) ha hl hK e1).trans ?_
      cxp []
      refine same fun fs => ?_
      rw [List.append_assoc]
      rfl
    · rw [if_neg h1]
      have h2 : f.type.id = .message := Decidable.byContradiction fun h => h1 (.inl h)
      have h3 : f.type.ref = none := Decidable.byContradiction fun h => h1 (.inr h)
      have hf := ha f.type.qname
      have e3 : ∀ a, ((pre ++ a :: post).map fun m => (.dom (.msg m) : Val SVal))[pre.length]? = some (.dom (.msg a)) :=
        at_append (fun m => (.dom (.msg m) : Val SVal)) pre post
      have e4 : ∀ a, ((fpre ++ a :: frest).map fun m => (.dom (.field m) : Val SVal))[fpre.length]? = some (.dom (.field a)) :=
        at_append (fun m => (.dom (.field m) : Val SVal)) fpre frest
      have e5 : ∀ a b, ((pre ++ a :: post).map fun m => (.dom (.msg m) : Val SVal)).set pre.length (.dom (.msg b)) =
        (pre ++ b :: post).map fun m => .dom (.msg m) := set_append (fun m => (.dom (.msg m) : Val SVal)) pre post
      have e6 : ∀ a b, ((fpre ++ a :: frest).map fun m => (.dom (.field m) : Val SVal)).set fpre.length (.dom (.field b)) =
        (fpre ++ b :: frest).map fun m => .dom (.field m) := set_append (fun m => (.dom (.field m) : Val SVal)) fpre frest
      cases hq : findMessage msgs f.type.qname with
      | none =>
        rw [hq] at hf
        have ff := prs_find (s := s) (N := N) w i f.type.qname
        rw [hf] at ff
        have hb : exec (parseLib s N) g parseFunBody1 ⟨[(n!"field'", .int .u64 fpre.length)] :: [] :: [(n!"message'", .int .u64 pre.length)] :: parseVars i b x fn, w⟩ =
            .thrown (.exception (b!"Unable to find message '" ++ f.type.qname ++ b!"'") 0 0) := by
          cxp [parseFunBody1, parseVars, e1, e2, eq_true h2, eq_true h3, ff, hw, hm, e3, e4, e5, e6]
          done
        rw [iterate_throw t1 hb]
        rfl
      | some k =>
        rw [hq] at hf
        have ff := prs_find (s := s) (N := N) w i f.type.qname
        rw [hf] at ff
        have hb : exec (parseLib s N) g parseFunBody1 ⟨[(n!"field'", .int .u64 fpre.length)] :: [] :: [(n!"message'", .int .u64 pre.length)] :: parseVars i b x fn, w⟩ =
            .ok (.next, ⟨[(n!"field'", .int .u64 fpre.length)] :: [] :: [(n!"message'", .int .u64 pre.length)] :: parseVars i b x fn,
              { w with tree := { w.tree with messages := pre ++ { m with fields := fpre ++ { f with type := { f.type with ref := some k } } :: frest } :: post } }⟩) := by
          cxp [parseFunBody1, parseVars, e1, e2, eq_true h2, eq_true h3, ff, hw, hm, e3, e4, e5, e6]
          done
        rw [iterate_next t1 hb (fields_step _ _ _ _ _ _ _ (by rw [hm] at hl; simp at hl; omega)),
          show fpre.length + 1 = (fpre ++ [{ f with type := { f.type with ref := some k } }]).length by simp]
        refine (ih n { w with tree := { w.tree with messages := pre ++ { m with fields := fpre ++ { f with type := { f.type with ref := some k } } :: frest } :: post } }
          { m with fields := fpre ++ { f with type := { f.type with ref := some k } } :: frest } (fpre ++ [{ f with type := { f.type with ref := some k } }])
          (by simp at hn; omega) rfl (by simp) (alike_fields _ (hw ▸ ha)) (by rw [hm] at hl; simp at hl ⊢; omega) hK (e3 _)).trans ?_
        cxp []
        refine same fun fs => ?_
        rw [List.append_assoc]
        rfl

/-- The condition of the loop over the messages. -/
def messagesTest : Expr := .binary n!"!=" (.name n!"message'") (.call (.member (.member (.name n!"this") n!"messages") n!"size") .nil)

theorem messages_test (w : Parsing) (i : In) (b : Bool) (x fn : Bytes) (k : Nat) :
    test (parseLib s N) messagesTest ⟨[(n!"message'", .int .u64 k)] :: parseVars i b x fn, w⟩ =
      .ok (decide (¬ (k : Int) = w.tree.messages.length), ⟨[(n!"message'", .int .u64 k)] :: parseVars i b x fn, w⟩) := by
  cxp [messagesTest, parseVars, List.length_map]

theorem messages_step (w : Parsing) (i : In) (b : Bool) (x fn : Bytes) (k : Nat) (h : k + 1 < 18446744073709551616) :
    perform (parseLib s N) (.incr n!"++" true (.name n!"message'")) ⟨[(n!"message'", .int .u64 k)] :: parseVars i b x fn, w⟩ =
      .ok ⟨[(n!"message'", .int .u64 (k + 1 : Nat))] :: parseVars i b x fn, w⟩ := by
  have e : IT.fit .u64 ((k : Int) + 1) = some ((k + 1 : Nat) : Int) := by
    show some (_ % _) = _
    congr 1
    omega
  cxp [parseVars, e, convert_self]

/-- Vectors that a loop of `n` iterations can visit, with sizes of type `size_t`. -/
def Visits (n : Nat) (l : List Message) : Prop :=
  ∀ m ∈ l, m.fields.length < n ∧ m.fields.length < 18446744073709551616

theorem messages_body (g : Nat) (w : Parsing) (i : In) (b : Bool) (x fn : Bytes) (pre post msgs : List Message) (m : Message)
    (hw : w.tree.messages = pre ++ m :: post) (ha : Alike w.tree.messages msgs) (hg : m.fields.length < g)
    (hl : m.fields.length < 18446744073709551616) :
    exec (parseLib s N) g parseFunBody2 ⟨[(n!"message'", .int .u64 pre.length)] :: parseVars i b x fn, w⟩ =
      (ranOf (resolveFields msgs m.fields)).bind fun fs => .ok (.next, ⟨[(n!"message'", .int .u64 pre.length)] :: parseVars i b x fn,
        { w with tree := { w.tree with messages := pre ++ { m with fields := fs } :: post } }⟩) := by
  have h := fun K G hK => fields_loop (s := s) (N := N) (β := Flow SVal × St SVal Parsing) g g w i b x fn pre post msgs m [] m.fields hg hw rfl ha hl K G hK
  unfold parseFunBody2
  cxp []
  refine (h _ (fun fs => .ok (.next, ⟨[(n!"message'", .int .u64 pre.length)] :: parseVars i b x fn,
        { w with tree := { w.tree with messages := pre ++ { m with fields := fs } :: post } }⟩)) ?_).trans ?_
  · intro j fs
    rfl
  · rfl

theorem messages_loop {β : Type} (g n : Nat) (w : Parsing) (i : In) (b : Bool) (x fn : Bytes) (pre rest msgs : List Message)
    (hn : rest.length < n) (hw : w.tree.messages = pre ++ rest) (ha : Alike w.tree.messages msgs)
    (hl : w.tree.messages.length < 18446744073709551616) (hv : Visits g rest)
    (K : Flow SVal × St SVal Parsing → Ran β) (G : List Message → Ran β)
    (hK : ∀ k l, K (.next, ⟨[(n!"message'", k)] :: parseVars i b x fn, { w with tree := { w.tree with messages := l } }⟩) = G l) :
    (iterate (test (parseLib s N) messagesTest) (exec (parseLib s N) g parseFunBody2)
      (perform (parseLib s N) (.incr n!"++" true (.name n!"message'"))) n
      ⟨[(n!"message'", .int .u64 pre.length)] :: parseVars i b x fn, w⟩).bind K =
    (ranOf (resolveMessages msgs rest)).bind fun l => G (pre ++ l) := by
  induction rest generalizing n w pre with
  | nil =>
    obtain ⟨n, rfl⟩ : ∃ m, n = m + 1 := ⟨n - 1, by simp at hn; omega⟩
    rw [iterate_done (s1 := ⟨[(n!"message'", .int .u64 pre.length)] :: parseVars i b x fn, w⟩)
      (by rw [messages_test, hw]; simp), Ran.bind_ok]
    refine Eq.trans ?_ ((hK (.int .u64 pre.length) (pre ++ [])).trans rfl)
    rw [← hw]
  | cons m rest ih =>
    obtain ⟨n, rfl⟩ : ∃ m, n = m + 1 := ⟨n - 1, by simp at hn; omega⟩
    have hb := messages_body (s := s) (N := N) g w i b x fn pre rest msgs m hw ha (hv m (by simp)).1 (hv m (by simp)).2
    have t1 := (messages_test (s := s) (N := N) w i b x fn pre.length).trans
      (by rw [hw]; simp; omega : _ = Ran.ok (true, (⟨[(n!"message'", .int .u64 pre.length)] :: parseVars i b x fn, w⟩ : St SVal Parsing)))
    rw [resolveMessages]
    cases hr : resolveFields msgs m.fields with
    | ok fs =>
      rw [hr] at hb
      rw [iterate_next t1 hb (messages_step _ _ _ _ _ _ (by rw [hw] at hl; simp at hl; omega)),
        show pre.length + 1 = (pre ++ [{ m with fields := fs }]).length by simp]
      refine (ih n { w with tree := { w.tree with messages := pre ++ { m with fields := fs } :: rest } } (pre ++ [{ m with fields := fs }])
        (by simp at hn; omega) (by simp) (alike_fields _ (hw ▸ ha)) (by rw [hw] at hl; simp at hl ⊢; omega)
        (fun m h => hv m (by simp [h])) hK).trans ?_
      rw [Out.bind]
      cxp []
      refine same fun fs => ?_
      rw [List.append_assoc]
      rfl
    | exc e => rw [hr] at hb; rw [iterate_throw t1 hb]; rfl
    | runtime => rw [hr] at hb; rw [iterate_throw t1 hb]; rfl
    | fuel => rw [hr] at hb; rw [iterate_fuel t1 hb]; rfl

theorem parse_runs (n : Nat) (fn : Bytes) (w : Parsing) (hv : ∀ t, parseProto (Proto.lex N) N N { w.tree with package := [] }
      { cur := Tok.default, ungot := false, src := In.open w.text } = .ok t →
      t.messages.length < n ∧ t.messages.length < 18446744073709551616 ∧ Visits n t.messages) :
    run (parseLib s N) n parseFun [.dom .stream, .str fn] w =
      (ranOf ((parseProto (Proto.lex N) N N { w.tree with package := [] } { cur := Tok.default, ungot := false, src := In.open w.text }).bind
        fun t => (resolveMessages t.messages t.messages).bind fun l => .ok { t with messages := l })).bind fun t =>
          .ok (.void, [.dom .stream, .str fn], { w with tree := t, fileName := fn }) := by
  obtain ⟨text, skip, tree, old⟩ := w
  cases hp : parseProto (Proto.lex N) N N { tree with package := [] } { cur := Tok.default, ungot := false, src := In.open text } with
  | ok t =>
    obtain ⟨h1, h2, h3⟩ := hv t hp
    have h := fun K G hK => messages_loop (s := s) (N := N) (β := Val SVal × List (Val SVal) × Parsing) n n ⟨text, skip, t, fn⟩ (In.open text) skip text fn [] t.messages t.messages h1
      rfl (fun q => rfl) h2 h3 K G hK
    cases skip
    · cxp [parseFun, hp]
      refine (h _ (fun l => .ok (.void, [.dom .stream, .str fn], ⟨text, false, { t with messages := l }, fn⟩)) ?_).trans ?_
      · intro k l
        rfl
      · rfl
    · cxp [parseFun, hp]
      refine (h _ (fun l => .ok (.void, [.dom .stream, .str fn], ⟨text, true, { t with messages := l }, fn⟩)) ?_).trans ?_
      · intro k l
        rfl
      · rfl
  | exc e =>
    have e1 : ranOf (.exc e : Out Tree) = .thrown (.exception (Gen.excText e) e.line e.col) := rfl
    cases skip <;> cxp [parseFun, hp, e1, Out.bind] <;> rfl
  | runtime =>
    cases skip <;> cxp [parseFun, hp] <;> rfl
  | fuel =>
    cases skip <;> cxp [parseFun, hp] <;> rfl

/-! ### The sizes of vectors -/

section
variable {σ : Type} (nx : σ → Out (Tok × σ))

theorem bind_ok {α β : Type} {o : Out α} {f : α → Out β} {b : β} (h : o.bind f = .ok b) : ∃ a, o = .ok a ∧ f a = .ok b := by
  cases o with
  | ok a => exact ⟨a, rfl, h⟩
  | _ => exact absurd h (by simp [Out.bind])

theorem fail_ok {α : Type} {tk : Tk σ} {k : Kind} {b : α} (h : (tk.fail k : Out α) = .ok b) : False := by
  simp [Tk.fail] at h

theorem parseField_size {M : Nat} {msgs : List Message} {m m' : Message} {tk tk' : Tk σ} (h : parseField nx M msgs m tk = .ok (m', tk')) :
    m'.fields.length = m.fields.length + 1 := by
  unfold parseField at h
  obtain ⟨_, _, h⟩ := bind_ok h
  obtain ⟨_, _, h⟩ := bind_ok h
  obtain ⟨_, _, h⟩ := bind_ok h
  split at h
  · exact (fail_ok h).elim
  obtain ⟨_, _, h⟩ := bind_ok h
  split at h
  · exact (fail_ok h).elim
  obtain ⟨_, _, h⟩ := bind_ok h
  split at h
  · exact (fail_ok h).elim
  dsimp only at h
  split at h
  · exact (fail_ok h).elim
  obtain ⟨_, _, h⟩ := bind_ok h
  obtain ⟨_, _, h⟩ := bind_ok h
  split at h
  · exact (fail_ok h).elim
  split at h
  · exact (fail_ok h).elim
  cases h
  simp

theorem parseBody_size {M : Nat} {msgs : List Message} (n : Nat) {m m' : Message} {tk tk' : Tk σ} (h : parseBody nx M msgs n m tk = .ok (m', tk')) :
    m'.fields.length ≤ m.fields.length + n := by
  induction n generalizing m tk with
  | zero => cases h
  | succ n ih =>
    rw [parseBody] at h
    obtain ⟨_, _, h⟩ := bind_ok h
    split at h
    · cases h; omega
    split at h
    · cases h; omega
    split at h
    · obtain ⟨_, _, h⟩ := bind_ok h
      have := ih h
      simp only at this
      omega
    · obtain ⟨a, ha, h⟩ := bind_ok h
      have h1 := ih h
      have h2 := parseField_size nx (m' := a.1) (tk' := a.2) ha
      omega

/-- A tree with at most as many messages, and as many fields in each. -/
def Small (k f : Nat) (t : Tree) : Prop := t.messages.length ≤ k ∧ ∀ m ∈ t.messages, m.fields.length ≤ f

theorem parseItem_small {M k : Nat} {t t' : Tree} {tk tk' : Tk σ} (h : parseItem nx M t tk = .ok (t', tk')) (ht : Small k M t) :
    Small (k + 1) M t' := by
  have same : Small (k + 1) M t := ⟨Nat.le_succ_of_le ht.1, ht.2⟩
  unfold parseItem at h
  split at h
  · rename_i hc
    unfold parseMessage at h
    rw [if_pos hc] at h
    obtain ⟨_, _, h⟩ := bind_ok h
    split at h
    · dsimp only at h
      obtain ⟨_, _, h⟩ := bind_ok h
      split at h
      · exact (fail_ok h).elim
      obtain ⟨a, ha, h⟩ := bind_ok h
      have h1 := parseBody_size nx M (m' := a.1) (tk' := a.2) ha
      cases h
      refine ⟨by simpa using ht.1, fun m hm => ?_⟩
      simp only [List.mem_append, List.mem_singleton] at hm
      cases hm with
      | inl h => exact ht.2 m h
      | inr h => subst h; simpa using h1
    · exact (fail_ok h).elim
  split at h
  · unfold parsePackage at h
    obtain ⟨_, _, h⟩ := bind_ok h
    split at h
    · obtain ⟨_, _, h⟩ := bind_ok h
      split at h
      · cases h; exact same
      · exact (fail_ok h).elim
    · exact (fail_ok h).elim
  split at h
  · obtain ⟨_, _, h⟩ := bind_ok h
    cases h; exact same
  split at h
  · obtain ⟨_, _, h⟩ := bind_ok h
    cases h; exact same
  · exact (fail_ok h).elim

theorem parseProto_small {M k : Nat} (n : Nat) {t t' : Tree} {tk : Tk σ} (h : parseProto nx M n t tk = .ok t') (ht : Small k M t) :
    Small (k + n) M t' := by
  induction n generalizing k t tk with
  | zero => cases h
  | succ n ih =>
    rw [parseProto] at h
    obtain ⟨_, _, h⟩ := bind_ok h
    split at h
    · cases h
      exact ⟨Nat.le_add_right_of_le ht.1, ht.2⟩
    obtain ⟨a, ha, h⟩ := bind_ok h
    have h1 := parseItem_small nx (t' := a.1) (tk' := a.2) ha ht
    dsimp only at h
    split at h
    · cases h
      exact ⟨by have := h1.1; omega, h1.2⟩
    · have h2 := ih h h1
      exact ⟨by have := h2.1; omega, h2.2⟩
end

/-- `Proto3::parse` of an empty object. -/
theorem parse_text (n : Nat) (fn : Bytes) (w : Parsing) (hw : w.tree = Tree.empty) (hn : N < n) (hN : N < 18446744073709551616) :
    run (parseLib s N) n parseFun [.dom .stream, .str fn] w =
      (ranOf (Proto.parse N w.text)).bind fun t => .ok (.void, [.dom .stream, .str fn], { w with tree := t, fileName := fn }) := by
  have he : ({ w.tree with package := [] } : Tree) = Tree.empty := by rw [hw]; rfl
  rw [parse_runs]
  · rw [he]; rfl
  · intro t ht
    rw [he] at ht
    have h := parseProto_small (Proto.lex N) (k := 0) N ht ⟨Nat.le_refl 0, fun m hm => by cases hm⟩
    refine ⟨by have := h.1; omega, by have := h.1; omega, fun m hm => ?_⟩
    have := h.2 m hm
    omega

end PG.Cxx.Throw
