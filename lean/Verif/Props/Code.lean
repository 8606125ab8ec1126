import Verif.Proofs.CppSem
import Verif.Props.Lexical
import Verif.Props.EndToEnd
import Verif.Props.Headers
/-
C85: the functions of the generated file, read as C++, are those of the model.
-/
set_option autoImplicit false
namespace PG.Cpp
open PG.Gen PG.Proto

theorem matches_of {msgs : List Message} {ctx : Ctx} {b64 : Bool} : ∀ {l : List Field} {fs : Fields}, FieldsTy msgs ctx b64 l fs → Matches ctx l fs
  | _, _, .nil => .nil
  | _, _, .cons _ hr => .cons (matches_of hr)

/-- JSON names that C++ literals stand for stay within the literals. -/
theorem within_of {t : Tree} (hn : LiteralNames t) {m : Message} (hm : m ∈ t.messages) {f : Field} (hf : f ∈ m.fields)
    (hp : Persistent f = true) : Within (ctxOf t.options) (jsonNameIn (ctxOf t.options) f) := by
  have h := hn m hm f hf hp
  simp only at h
  unfold Within keyText
  cases ho : (ctxOf t.options).obfuscate
  · rw [ho] at h
    simp only [Bool.false_eq_true, if_false] at h ⊢
    exact ⟨closed_plain fun c hc => ⟨(h c hc).1, (h c hc).2.1, (h c hc).2.2.1⟩, fun hc => (h _ hc).2.1 rfl⟩
  · simp only [if_true]
    exact ⟨closed_obfuscated _, fun hc => (obfuscateText_chars _ _ hc).2.2.1 rfl⟩

/-- The name of the structure, as tokens. -/
theorem typeToks_eq {m : Message} (hn : CIdent m.name) (hp : ∀ n ∈ namespaces m.package, CIdent n) :
    tokens (className m ++ b!"_type\n") = some (typeToks m) := by
  obtain ⟨b, us, w, e, h1, h2⟩ := type_fits hn hp
  have e' : className m ++ b!"_type\n" = 32 :: (b ++ [10]) := by
    have : className m ++ b!"_type\n" = className m ++ b!"_type" ++ [10] := by simp
    rw [this, e]
    rfl
  have h3 : Lex.run (.word w) [10] = some ([.word w], .start) := rfl
  have h4 := Lex.run_some h1 h3
  have h5 : Lex.run .start (32 :: (b ++ [10])) = Lex.run .start (b ++ [10]) := by
    rw [Lex.run]
    have : Lex.step .start 32 = some ([], .start) := by decide
    rw [this]
    simp
  rw [e', tokens, h5, h4]
  simp only
  rw [h2]

/-- **C85.** In the file that is generated for an accepted schema, every message has a part, outside of comments and literals
and in no other declaration, that is a specialization `json<T>` for the structure of the message; the functions in it, executed
as C++, are those of the type of the message. -/
theorem C85_functions {rt : Runtime} (hrt : ∀ p, WellFormed (Call.text rt ⟨.runtime p, []⟩)) {N : Nat} {text : Bytes} {t : Tree}
    (h : parse N text = .ok t) {fileName : Bytes} (hf : 10 ∉ fileName) (hok : (output fileName t).res = .ok ()) (hd : NamesDistinct t)
    (hn : LiteralNames t) {m : Message} (hm : m ∈ (sortTree t).messages) {b64 : Bool} {ty : Ty}
    (ht : MessageTy (sortTree t).messages (ctxOf t.options) b64 m ty) :
    ∃ before body after c, textOf rt (output fileName t).calls = before ++ body ++ after ∧
      Scan.begin.run before = some ⟨.start, false, [.cond]⟩ ∧
      (∀ n, m.fields.length + 40 ≤ n → Class.of n body = some c) ∧ c.path = b!"protogen_3_0_0" ∧
      tokens (className m ++ b!"_type\n") = some c.type ∧ c.Implements ty := by
  have hl := (sortTree_same t).linked (parse_linked h)
  obtain ⟨h1, order, h2, h3⟩ := generate_ok hok
  obtain ⟨_, _, hall⟩ := sortAll_ok h2
  have hctx : ctxOf (sortTree t).options = ctxOf t.options := rfl
  have hnamed : ∀ i ∈ order, ∀ m, (sortTree t).messages[i]? = some m → Labelled (sortTree t).messages m :=
    fun i _ m hm => sorted_named h h3 (List.mem_of_getElem? hm)
  have hclosed : ∀ m ∈ (sortTree t).messages, LabelsClosed (ctxOf t.options) m := by
    intro m hm f hf hp
    obtain ⟨a, ha, rfl⟩ := sorted_message hm
    exact (within_of hn ha (mem_sortByName.mp hf) hp).1
  have hlab := sorted_named h h3 hm
  have hlexed : Lexed (ctxOf t.options) m := by
    refine ⟨hlab.name, hlab.package, hlab.fields, fun f hf hp => ?_⟩
    obtain ⟨a, ha, rfl⟩ := sorted_message hm
    exact within_of hn ha (mem_sortByName.mp hf) hp
  obtain ⟨i, hi, hmi⟩ := List.mem_iff_getElem.mp hm
  have hget : (sortTree t).messages[i]? = some m := by rw [List.getElem?_eq_getElem hi, hmi]
  obtain ⟨o1, o2, rfl⟩ := List.append_of_mem (hall i hi)
  rw [output, generate_eq h1 h2 hl h3, fileCalls, hctx]
  simp only
  generalize hms : (sortTree t).messages = msgs at *
  generalize hc : ctxOf t.options = ctx at *
  have hsplit : messageCalls msgs ctx m = ([⟨.title, [m.name]⟩] ++
      ((namespaces m.package).map (fun n => (⟨.namespaceOpen, [n]⟩ : Call)) ++ [⟨.structOpen, [m.name]⟩] ++
        m.fields.map (fun f => ⟨.structField, [cppType ctx.useLists f (targetOf msgs f), f.name]⟩) ++
        [⟨.structClose, []⟩] ++ (namespaces m.package).map (fun n => (⟨.namespaceClose, [n]⟩ : Call)))) ++
      (wrapperCalls ctx m ++
      ((namespaces m.package).map (fun n => ⟨.namespaceOpen, [n]⟩) ++
      ([⟨.entity, [m.name, className m ++ b!"_type", versionNaming]⟩] ++
      ((namespaces m.package).map (fun n => ⟨.namespaceClose, [n]⟩) ++
      [⟨.entityJson, [className m, className m ++ b!"_type", versionNaming]⟩])))) := by
    rw [messageCalls_eq]
    simp only [List.append_assoc, List.map_map, Function.comp_def]
  have hstruct := struct_runs (rt := rt) ctx hlab [.cond]
  generalize ([⟨.title, [m.name]⟩] ++
      ((namespaces m.package).map (fun n => (⟨.namespaceOpen, [n]⟩ : Call)) ++ [⟨.structOpen, [m.name]⟩] ++
        m.fields.map (fun f => ⟨.structField, [cppType ctx.useLists f (targetOf msgs f), f.name]⟩) ++
        [⟨.structClose, []⟩] ++ (namespaces m.package).map (fun n => (⟨.namespaceClose, [n]⟩ : Call)))) = x at hsplit hstruct
  generalize ((namespaces m.package).map (fun n => (⟨.namespaceOpen, [n]⟩ : Call)) ++
      ([⟨.entity, [m.name, className m ++ b!"_type", versionNaming]⟩] ++
      ((namespaces m.package).map (fun n => (⟨.namespaceClose, [n]⟩ : Call)) ++
      [⟨.entityJson, [className m, className m ++ b!"_type", versionNaming]⟩]))) = y at hsplit
  have hpre := (show Runs rt [] (inclusionCalls (needs msgs)) [] from inclusions_run hrt _).append ((head_runs rt hf []).append
    ((messages_run (rt := rt) (msgs := msgs) (ctx := ctx) (order := o1)
      (fun j hj m hm => ⟨hnamed j (List.mem_append_left _ hj) m hm, hclosed m (List.mem_of_getElem? hm)⟩) [.cond]).append hstruct))
  refine ⟨_, textOf rt (wrapperCalls ctx m), textOf rt (y ++
    (o2.flatMap fun i => ((msgs[i]?).map (messageCalls msgs ctx)).getD []) ++ [⟨.endGuard, [makeGuard fileName]⟩]),
    classOf ctx m, ?_, hpre, ?_, rfl, ?_, ?_⟩
  · rw [← textOf_append, ← textOf_append]
    congr 1
    simp only [List.flatMap_append, List.flatMap_cons, hget, Option.map_some, Option.getD_some, hsplit, List.append_assoc]
  · intro n hle
    obtain ⟨k, rfl⟩ : ∃ k, n = k + 40 := ⟨n - 40, by omega⟩
    exact class_of hlexed (by omega)
  · exact typeToks_eq hlab.name hlab.package
  · cases ht with
    | mk ht =>
      rw [← hc] at *
      subst hms
      obtain ⟨a, ha, rfl⟩ := sorted_message hm
      exact implements (matches_of ht) ((((sortByName_perm a.fields).map (·.name)).nodup_iff).mpr (hd.2 a ha))
        (fun f hf hp => usable_of hn ha (mem_sortByName.mp hf) hp)

/-- A part of a text is the specialization `json<T>` for the structure of the message, and has the functions of the type. -/
def HasClass (text : Bytes) (m : Message) (ty : Ty) : Prop :=
  ∃ before body after c, text = before ++ body ++ after ∧ Scan.begin.run before = some ⟨.start, false, [.cond]⟩ ∧
    (∀ n, m.fields.length + 40 ≤ n → Class.of n body = some c) ∧ c.path = b!"protogen_3_0_0" ∧
    tokens (className m ++ b!"_type\n") = some c.type ∧ c.Implements ty

/-- **C85.** With the runtime of the distribution: the classes of a file, as C55 has them, are the meaning of its text. -/
theorem C85_classes {N : Nat} {text : Bytes} {t : Tree} (h : parse N text = .ok t) {fileName : Bytes} (hf : 10 ∉ fileName)
    (hok : (output fileName t).res = .ok ()) (hd : NamesDistinct t) (hn : LiteralNames t) (hb : BytesSupported t) :
    ∃ cs, classesOf (output fileName t).calls = some cs ∧ (cs.map (·.1)).Perm (t.messages.map className) ∧
      ∀ m ∈ (sortTree t).messages, ∃ ty, cs.find (className m) = some ty ∧
        HasClass (textOf shipped (output fileName t).calls) m ty := by
  obtain ⟨cs, h1, h2, h3⟩ := C55_classes h hok hd hn hb
  refine ⟨cs, h1, h2, fun m hm => ?_⟩
  obtain ⟨ty, h4, h5⟩ := h3 m hm
  exact ⟨ty, h4, C85_functions shipped_wellFormed h hf hok hd hn hm h5⟩

/-- Both classes of the shop are in its file. -/
example : ∃ a ∈ (sortTree shopTree).messages, ∃ b ∈ (sortTree shopTree).messages, a.name = b!"Item" ∧ b.name = b!"Order" ∧
    HasClass (textOf shipped (output b!"shop.proto" shopTree).calls) a itemTy ∧
    HasClass (textOf shipped (output b!"shop.proto" shopTree).calls) b orderTy := by
  obtain ⟨cs, h1, _, h2⟩ := C85_classes shop_parse (by decide) shop_ok shop_regular.distinct shop_regular.literal
    shop_regular.bytes
  rw [shop_classes] at h1
  injection h1 with h1
  subst h1
  obtain ⟨a, ha, ra⟩ := h2 ((sortTree shopTree).messages[1]'(by decide +kernel)) (List.getElem_mem _)
  obtain ⟨b, hb, rb⟩ := h2 ((sortTree shopTree).messages[0]'(by decide +kernel)) (List.getElem_mem _)
  have ea : Classes.find [(b!" ::shop::Item", itemTy), (b!" ::shop::Order", orderTy)]
    (className ((sortTree shopTree).messages[1]'(by decide +kernel))) = some itemTy := by decide +kernel
  have eb : Classes.find [(b!" ::shop::Item", itemTy), (b!" ::shop::Order", orderTy)]
    (className ((sortTree shopTree).messages[0]'(by decide +kernel))) = some orderTy := by decide +kernel
  rw [ea] at ha
  rw [eb] at hb
  cases ha
  cases hb
  exact ⟨_, List.getElem_mem _, _, List.getElem_mem _, by decide +kernel, by decide +kernel, ra, rb⟩

end PG.Cpp
