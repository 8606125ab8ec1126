import Verif.Proofs.Lexical
import Verif.Proofs.LexicalText
/-
C83: the generated file has the outer form of a C++ file.
-/
set_option autoImplicit false
namespace PG.Gen
open PG.Proto

theorem textOf_append (rt : Runtime) (a b : List Call) : textOf rt (a ++ b) = textOf rt a ++ textOf rt b :=
  List.flatMap_append

theorem textOf_one (rt : Runtime) (c : Call) : textOf rt [c] = Call.text rt c := by simp [textOf]

/-- From the beginning of a line to the beginning of a line. -/
def Runs (rt : Runtime) (a : List Open) (cs : List Call) (b : List Open) : Prop :=
  (atLine a).run (textOf rt cs) = some (atLine b)

theorem Runs.append {rt : Runtime} {a b c : List Open} {x y : List Call} (h : Runs rt a x b) (k : Runs rt b y c) :
    Runs rt a (x ++ y) c := by
  unfold Runs at *
  rw [textOf_append]
  exact Scan.run_some h k

theorem Runs.fail {rt : Runtime} {a b : List Open} {x y : List Call} (h : Runs rt a x b)
    (k : (atLine b).run (textOf rt y) = none) : (atLine a).run (textOf rt (x ++ y)) = none := by
  rw [textOf_append, Scan.run_append, h]; exact k

theorem Runs.fail' {rt : Runtime} {a : List Open} {x : List Call} (y : List Call)
    (k : (atLine a).run (textOf rt x) = none) : (atLine a).run (textOf rt (x ++ y)) = none := by
  rw [textOf_append, Scan.run_append, k]; rfl

theorem Runs.call {rt : Runtime} {tpl : Tpl} {kinds : List HoleKind} {before after : List Open} {args : List Bytes}
    (he : (tpl, kinds, before, after) ∈ effects) (hf : FitAll kinds args) (o : List Open) :
    Runs rt (before ++ o) [⟨tpl, args⟩] (after ++ o) := by
  unfold Runs
  rw [textOf_one]
  exact run_call rt he hf o

theorem Runs.map {α : Type} {rt : Runtime} {f : α → Call} {o : List Open} {l : List α} (h : ∀ x ∈ l, Runs rt o [f x] o) :
    Runs rt o (l.map f) o := by
  induction l with
  | nil => rfl
  | cons x l ih => exact (h x List.mem_cons_self).append (ih fun y hy => h y (List.mem_cons_of_mem _ hy))

theorem fit1 {k : HoleKind} {a : Bytes} (h : k.Fits a) : FitAll [k] [a] := .cons h .nil
theorem fit2 {k l : HoleKind} {a b : Bytes} (h : k.Fits a) (i : l.Fits b) : FitAll [k, l] [a, b] := .cons h (fit1 i)
theorem fit3 {k l m : HoleKind} {a b c : Bytes} (h : k.Fits a) (i : l.Fits b) (j : m.Fits c) : FitAll [k, l, m] [a, b, c] :=
  .cons h (fit2 i j)

/-- The names of a message, and the messages its fields refer to. -/
structure Labelled (msgs : List Message) (m : Message) : Prop where
  name : CIdent m.name
  package : ∀ n ∈ namespaces m.package, CIdent n
  fields : ∀ f ∈ m.fields, CIdent f.name
  types : ∀ f ∈ m.fields, f.type.id = .message → ∃ x, targetOf msgs f = some x ∧ Wordy (className x)

theorem naming_wordy : Wordy versionNaming := ⟨by decide, by decide⟩

theorem Runs.opening {rt : Runtime} {ns : List Bytes} (h : ∀ n ∈ ns, CIdent n) (o : List Open) :
    Runs rt o (ns.map fun n => ⟨.namespaceOpen, [n]⟩) (List.replicate ns.length .curly ++ o) := by
  induction ns generalizing o with
  | nil => rfl
  | cons n ns ih =>
    have h1 : Runs rt o [⟨.namespaceOpen, [n]⟩] (.curly :: o) :=
      Runs.call (before := []) (after := [.curly]) (kinds := [.word]) (by decide)
        (fit1 (h n List.mem_cons_self).wordy.fits) o
    have h2 := ih (fun n hn => h n (List.mem_cons_of_mem _ hn)) (.curly :: o)
    have := h1.append h2
    rw [show List.replicate ns.length Open.curly ++ .curly :: o = List.replicate (n :: ns).length .curly ++ o by
      rw [List.length_cons, List.replicate_succ', List.append_assoc]; rfl] at this
    exact this

theorem Runs.closing {rt : Runtime} {ns : List Bytes} (h : ∀ n ∈ ns, CIdent n) (o : List Open) :
    Runs rt (List.replicate ns.length .curly ++ o) (ns.map fun n => ⟨.namespaceClose, [n]⟩) o := by
  induction ns generalizing o with
  | nil => rfl
  | cons n ns ih =>
    have h1 : Runs rt (.curly :: (List.replicate ns.length .curly ++ o)) [⟨.namespaceClose, [n]⟩]
        (List.replicate ns.length .curly ++ o) :=
      Runs.call (before := [.curly]) (after := []) (kinds := [.word]) (by decide)
        (fit1 (h n List.mem_cons_self).wordy.fits) _
    exact h1.append (ih (fun n hn => h n (List.mem_cons_of_mem _ hn)) o)

/-- The labels of a message are closed literals. -/
def LabelsClosed (ctx : Ctx) (m : Message) : Prop :=
  ∀ f ∈ m.fields, Persistent f = true → Closed (keyText ctx (jsonNameIn ctx f)) = true

theorem Runs.functions {rt : Runtime} {empty head item foot : Tpl} (h1 : (empty, [.word], [], []) ∈ effects)
    (h2 : (head, [.word], [], [.curly]) ∈ effects) (h3 : (item, [.word], [], []) ∈ effects)
    (h4 : (foot, [], [.curly], []) ∈ effects) {msgs : List Message} {m : Message} (hn : Labelled msgs m) (o : List Open) :
    Runs rt o (functionCalls empty head item foot m) o := by
  have ht : Wordy (className m ++ b!"_type") := (className_wordy hn.name hn.package).append' (by decide)
  unfold functionCalls
  split
  · exact Runs.call h1 (fit1 ht.fits) o
  · have a : Runs rt o [⟨head, [className m ++ b!"_type"]⟩] (.curly :: o) := Runs.call h2 (fit1 ht.fits) o
    have b : Runs rt (.curly :: o) (m.fields.map fun f => ⟨item, [f.name]⟩) (.curly :: o) :=
      Runs.map fun f hf => Runs.call h3 (fit1 (hn.fields f hf).wordy.fits) _
    have c : Runs rt (.curly :: o) [⟨foot, []⟩] o := Runs.call h4 .nil o
    exact (a.append b).append c

/-- What comes before the items of the writer. -/
theorem Runs.reader {rt : Runtime} {msgs : List Message} {m : Message} (hn : Labelled msgs m) (o : List Open) :
    Runs rt o
      (if m.fields.filter Persistent = [] then [⟨.readFieldEmpty, [className m ++ b!"_type"]⟩]
       else [⟨.readFieldHeader, [className m ++ b!"_type"]⟩] ++
         (m.fields.filter Persistent).zipIdx.map (fun x => ⟨.readFieldItem, [decNat x.2, x.1.name]⟩) ++
         [⟨.readFieldFooter, []⟩]) o := by
  have ht : Wordy (className m ++ b!"_type") := (className_wordy hn.name hn.package).append' (by decide)
  split
  · exact Runs.call (before := []) (after := []) (kinds := [.word]) (by decide) (fit1 ht.fits) o
  · have a : Runs rt o [⟨.readFieldHeader, [className m ++ b!"_type"]⟩] (.curly :: .curly :: o) :=
      Runs.call (before := []) (after := [.curly, .curly]) (kinds := [.word]) (by decide) (fit1 ht.fits) o
    have b : Runs rt (.curly :: .curly :: o)
        ((m.fields.filter Persistent).zipIdx.map (fun x => ⟨.readFieldItem, [decNat x.2, x.1.name]⟩))
        (.curly :: .curly :: o) := by
      refine Runs.map fun x hx => ?_
      have hf : x.1 ∈ m.fields := by
        have := List.fst_mem_of_mem_zipIdx hx
        exact (List.mem_filter.mp this).1
      exact Runs.call (before := []) (after := []) (kinds := [.word, .word]) (by decide)
        (fit2 (decNat_wordy _).fits (hn.fields _ hf).wordy.fits) _
    have c : Runs rt (.curly :: .curly :: o) [⟨.readFieldFooter, []⟩] o :=
      Runs.call (before := [.curly, .curly]) (after := []) (kinds := []) (by decide) .nil o
    exact (a.append b).append c

theorem Runs.table {rt : Runtime} {ctx : Ctx} {m : Message} (hl : LabelsClosed ctx m) (o : List Open) :
    Runs rt o
      (if m.fields.filter Persistent = [] then [⟨.indexEmpty, []⟩]
       else [⟨if ctx.obfuscate then .indexHeaderObf else .indexHeader, []⟩] ++
         (m.fields.filter Persistent).zipIdx.map (fun x => ⟨.indexItem, [keyText ctx (jsonNameIn ctx x.1), decNat x.2]⟩) ++
         [⟨.indexFooter, []⟩]) o := by
  split
  · exact Runs.call (before := []) (after := []) (kinds := []) (by decide) .nil o
  · have a : Runs rt o [⟨if ctx.obfuscate then .indexHeaderObf else .indexHeader, []⟩] (.curly :: .curly :: o) := by
      cases ctx.obfuscate
      · exact Runs.call (before := []) (after := [.curly, .curly]) (kinds := []) (by decide) .nil o
      · exact Runs.call (before := []) (after := [.curly, .curly]) (kinds := []) (by decide) .nil o
    have b : Runs rt (.curly :: .curly :: o)
        ((m.fields.filter Persistent).zipIdx.map
          (fun x => ⟨.indexItem, [keyText ctx (jsonNameIn ctx x.1), decNat x.2]⟩)) (.curly :: .curly :: o) := by
      refine Runs.map fun x hx => ?_
      have hf := List.mem_filter.mp (List.fst_mem_of_mem_zipIdx hx)
      exact Runs.call (before := []) (after := []) (kinds := [.key, .word]) (by decide)
        (fit2 (Closed.key (hl _ hf.1 hf.2)) (decNat_wordy _).fits) _
    have c : Runs rt (.curly :: .curly :: o) [⟨.indexFooter, []⟩] o :=
      Runs.call (before := [.curly, .curly]) (after := []) (kinds := []) (by decide) .nil o
    exact (a.append b).append c

/-! ### An open label -/

/-- The pieces of the template of an item of the writer. -/
def itemPieces : List Piece := (pieces (Tpl.text noRuntime .writeItem) none).getD []
/-- … before the label. -/
def itemBefore : List Piece := itemPieces.takeWhile (· ≠ .hole b!"2")
/-- … from the next quote on. -/
def itemAfter : List Piece := itemPieces.drop (itemBefore.length + 7)

theorem item_split : itemPieces = itemBefore ++ .hole b!"2" :: (b!" << \"\\".map Piece.lit ++ itemAfter) := by decide +kernel

theorem item_text (rt : Runtime) (n l : Bytes) : Call.text rt ⟨.writeItem, [n, l]⟩ =
    filled [n, l] itemBefore ++ l ++ (b!" << \"\\" ++ filled [n, l] itemAfter) := by
  have h : pieces (Tpl.text rt .writeItem) none = some itemPieces := by
    rw [text_noRuntime rt (by intro p; exact nofun)]
    decide +kernel
  have hw : ∀ p ∈ itemPieces, p.WF ∧ p ≠ .lit 8 := by decide +kernel
  have e : Tpl.text rt .writeItem = templateText itemPieces := (pieces_text _ none _ h).symm
  rw [Call.text]
  dsimp only
  rw [e, C40_substitution_partial [n, l] hw, item_split]
  have hl : filled [n, l] (.hole b!"2" :: (b!" << \"\\".map Piece.lit ++ itemAfter)) =
      l ++ (b!" << \"\\" ++ filled [n, l] itemAfter) := by
    simp [filled, Piece.filled, numeral]
  rw [List.append_assoc, ← hl]
  exact List.flatMap_append

theorem item_before {n l : Bytes} (hn : CIdent n) (o : List Open) :
    (atLine o).run (filled [n, l] itemBefore) = some ⟨.code, false, .curly :: o⟩ := by
  have h : runPieces [.word] (atLine []) itemBefore = some ⟨.code, false, [.curly]⟩ := by decide +kernel
  have hh : ∀ p ∈ itemBefore, ∀ d, p = .hole d → numeral d = 1 := by
    have : itemBefore.all (fun p => match p with | .lit _ => true | .hole d => decide (numeral d = 1)) = true := by
      decide +kernel
    rw [List.all_eq_true] at this
    rintro p hp d rfl
    exact of_decide_eq_true (this _ hp)
  generalize itemBefore = ps at h hh ⊢
  have hs : filled [n, l] ps = filled [n] ps := by
    unfold filled
    rw [List.flatMap_def, List.flatMap_def]
    congr 1
    refine List.map_congr_left fun p hp => ?_
    cases p with
    | lit c => rfl
    | hole d => simp only [Piece.filled, hh _ hp d rfl]; rfl
  rw [hs]
  exact Scan.run_under o (runPieces_filled (fit1 hn.wordy.fits) h)

theorem item_fails (rt : Runtime) {n name : Bytes} {ctx : Ctx} (hn : CIdent n) (ho : ctx.obfuscate = false)
    (hq : c!"\"" ∉ name) (hc : Closed name = false) (o : List Open) :
    (atLine o).run (Call.text rt ⟨.writeItem, [n, labelText ctx name]⟩) = none := by
  rw [item_text, Scan.run_append, Scan.run_append, item_before hn]
  dsimp only [Option.bind]
  unfold labelText
  rw [if_neg (by rw [ho]; decide), Scan.run_append, Scan.run_append]
  have e : Scan.run ⟨.code, false, .curly :: o⟩ b!"\"" = some ⟨.str, false, .curly :: o⟩ := rfl
  rw [e]
  dsimp only [Option.bind]
  rcases run_str_open hq hc false (.curly :: o) with h | h
  · rw [h]
  · rw [h]
    have e : Scan.run ⟨.strEscape, false, .curly :: o⟩ b!"\"" = some ⟨.str, false, .curly :: o⟩ := rfl
    dsimp only [Option.bind]
    rw [e]
    dsimp only
    rw [Scan.run_append]
    have e : Scan.run ⟨.str, false, .curly :: o⟩ b!" << \"\\" = some ⟨.splice, false, .curly :: o⟩ := rfl
    rw [e]
    have h : ∃ r, filled [n, b!"\"" ++ name ++ b!"\""] itemAfter = c!"\"" :: r := by
      have : itemAfter = .lit c!"\"" :: itemAfter.tail := by decide +kernel
      rw [this]
      exact ⟨_, rfl⟩
    obtain ⟨r, hr⟩ := h
    rw [hr]
    rfl

/-! ### A message -/

/-- The label of a field in the writer. -/
def itemCall (ctx : Ctx) (f : Field) : Call := ⟨.writeItem, [f.name, labelText ctx (jsonNameIn ctx f)]⟩

theorem items_run {rt : Runtime} {ctx : Ctx} {fs : List Field} (hn : ∀ f ∈ fs, CIdent f.name)
    (hc : ∀ f ∈ fs, Closed (keyText ctx (jsonNameIn ctx f)) = true) (o : List Open) : Runs rt o (fs.map (itemCall ctx)) o :=
  Runs.map fun f hf => Runs.call (before := []) (after := []) (kinds := [.word, .label]) (by decide)
    (fit2 (hn f hf).wordy.fits (Closed.label (hc f hf))) o

theorem items_fail (rt : Runtime) {ctx : Ctx} {fs : List Field} (hn : ∀ f ∈ fs, CIdent f.name) (ho : ctx.obfuscate = false)
    (hq : ∀ f ∈ fs, c!"\"" ∉ jsonNameIn ctx f) (hc : ∃ f ∈ fs, Closed (jsonNameIn ctx f) = false) (o : List Open) :
    (atLine o).run (textOf rt (fs.map (itemCall ctx))) = none := by
  have hk : ∀ name, keyText ctx name = name := fun name => by rw [keyText, if_neg (by rw [ho]; decide)]
  induction fs with
  | nil => obtain ⟨f, hf, _⟩ := hc; cases hf
  | cons f fs ih =>
    rw [show (f :: fs).map (itemCall ctx) = [itemCall ctx f] ++ fs.map (itemCall ctx) from rfl]
    cases hf : Closed (jsonNameIn ctx f) with
    | false =>
      refine Runs.fail' _ ?_
      rw [textOf_one]
      exact item_fails rt (hn f List.mem_cons_self) ho (hq f List.mem_cons_self) hf o
    | true =>
      have h1 : Runs rt o [itemCall ctx f] o :=
        items_run (fs := [f]) (fun g hg => by rw [List.mem_singleton.mp hg]; exact hn f List.mem_cons_self)
          (fun g hg => by rw [List.mem_singleton.mp hg, hk]; exact hf) o
      refine h1.fail (ih (fun g hg => hn g (List.mem_cons_of_mem _ hg)) (fun g hg => hq g (List.mem_cons_of_mem _ hg)) ?_)
      obtain ⟨g, hg, hgc⟩ := hc
      rcases List.mem_cons.mp hg with rfl | hg
      · rw [hf] at hgc; cases hgc
      · exact ⟨g, hg, hgc⟩

/-- Up to the writer. -/
def messageBefore (msgs : List Message) (ctx : Ctx) (m : Message) : List Call :=
  [⟨.title, [m.name]⟩] ++
  ((namespaces m.package).map (fun n => (⟨.namespaceOpen, [n]⟩ : Call)) ++ [⟨.structOpen, [m.name]⟩] ++
    m.fields.map (fun f => ⟨.structField, [cppType ctx.useLists f (targetOf msgs f), f.name]⟩) ++
    [⟨.structClose, []⟩] ++ (namespaces m.package).map (fun n => (⟨.namespaceClose, [n]⟩ : Call))) ++
  [⟨.jsonModelHeader, [versionNaming, className m ++ b!"_type"]⟩] ++
  (if m.fields.filter Persistent = [] then [⟨.readFieldEmpty, [className m ++ b!"_type"]⟩]
   else [⟨.readFieldHeader, [className m ++ b!"_type"]⟩] ++
     (m.fields.filter Persistent).zipIdx.map (fun x => ⟨.readFieldItem, [decNat x.2, x.1.name]⟩) ++
     [⟨.readFieldFooter, []⟩])

/-- The writer. -/
def messageWriter (ctx : Ctx) (m : Message) : List Call :=
  if m.fields.filter Persistent = [] then [⟨.writeEmpty, [className m ++ b!"_type"]⟩]
  else [⟨.writeHeader, [className m ++ b!"_type", versionNaming]⟩] ++
    (m.fields.filter Persistent).map (itemCall ctx) ++ [⟨.writeFooter, []⟩]

/-- After the writer. -/
def messageAfter (ctx : Ctx) (m : Message) : List Call :=
  functionCalls .emptyEmpty .emptyHeader .emptyItem .emptyFooter m ++
  functionCalls .clearEmpty .clearHeader .clearItem .clearFooter m ++
  functionCalls .equalEmpty .equalHeader .equalItem .equalFooter m ++
  functionCalls .swapEmpty .swapHeader .swapItem .swapFooter m ++
  (if m.fields.filter Persistent = [] then [⟨.indexEmpty, []⟩]
   else [⟨if ctx.obfuscate then .indexHeaderObf else .indexHeader, []⟩] ++
     (m.fields.filter Persistent).zipIdx.map (fun x => ⟨.indexItem, [keyText ctx (jsonNameIn ctx x.1), decNat x.2]⟩) ++
     [⟨.indexFooter, []⟩]) ++
  [⟨.jsonModelFooter, [versionNaming]⟩] ++
  ((namespaces m.package).map (fun n => (⟨.namespaceOpen, [n]⟩ : Call)) ++
    [⟨.entity, [m.name, className m ++ b!"_type", versionNaming]⟩] ++
    (namespaces m.package).map (fun n => (⟨.namespaceClose, [n]⟩ : Call))) ++
  [⟨.entityJson, [className m, className m ++ b!"_type", versionNaming]⟩]

theorem message_split (msgs : List Message) (ctx : Ctx) (m : Message) :
    messageCalls msgs ctx m = messageBefore msgs ctx m ++ messageWriter ctx m ++ messageAfter ctx m := by
  have e : itemCall ctx = fun f => ⟨.writeItem, [f.name, labelText ctx (jsonNameIn ctx f)]⟩ := rfl
  simp only [messageCalls, messageBefore, messageWriter, messageAfter, e, List.append_assoc]

/-- The structure of a message. -/
theorem struct_runs {rt : Runtime} {msgs : List Message} (ctx : Ctx) {m : Message} (hn : Labelled msgs m) (o : List Open) :
    Runs rt o ([⟨.title, [m.name]⟩] ++
  ((namespaces m.package).map (fun n => (⟨.namespaceOpen, [n]⟩ : Call)) ++ [⟨.structOpen, [m.name]⟩] ++
    m.fields.map (fun f => ⟨.structField, [cppType ctx.useLists f (targetOf msgs f), f.name]⟩) ++
    [⟨.structClose, []⟩] ++ (namespaces m.package).map (fun n => (⟨.namespaceClose, [n]⟩ : Call)))) o := by
  have a : Runs rt o [⟨.title, [m.name]⟩] o :=
    Runs.call (before := []) (after := []) (kinds := [.word]) (by decide) (fit1 hn.name.wordy.fits) o
  have b := Runs.opening (rt := rt) hn.package o
  generalize List.replicate (namespaces m.package).length Open.curly ++ o = q at b
  have b' := Runs.closing (rt := rt) hn.package o
  have e : (atLine q) = atLine (List.replicate (namespaces m.package).length Open.curly ++ o) := by
    have := Runs.opening (rt := rt) hn.package o
    unfold Runs at this b
    rw [b] at this
    injection this
  have e : q = List.replicate (namespaces m.package).length Open.curly ++ o := congrArg Scan.opened e
  rw [← e] at b'
  have c : Runs rt q [⟨.structOpen, [m.name]⟩] (.curly :: q) :=
    Runs.call (before := []) (after := [.curly]) (kinds := [.word]) (by decide) (fit1 hn.name.wordy.fits) q
  have d : Runs rt (.curly :: q) (m.fields.map fun f => ⟨.structField, [cppType ctx.useLists f (targetOf msgs f), f.name]⟩)
      (.curly :: q) :=
    Runs.map fun f hf => Runs.call (before := []) (after := []) (kinds := [.word, .word]) (by decide)
      (fit2 (cppType_wordy (hn.types f hf)).fits (hn.fields f hf).wordy.fits) _
  have f : Runs rt (.curly :: q) [⟨.structClose, []⟩] q :=
    Runs.call (before := [.curly]) (after := []) (kinds := []) (by decide) .nil q
  exact a.append ((((b.append c).append d).append f).append b')

theorem before_runs {rt : Runtime} {msgs : List Message} (ctx : Ctx) {m : Message} (hn : Labelled msgs m) (o : List Open) :
    Runs rt o (messageBefore msgs ctx m) (.curly :: .curly :: o) := by
  have ht : Wordy (className m ++ b!"_type") := (className_wordy hn.name hn.package).append' (by decide)
  have g : Runs rt o [⟨.jsonModelHeader, [versionNaming, className m ++ b!"_type"]⟩] (.curly :: .curly :: o) :=
    Runs.call (before := []) (after := [.curly, .curly]) (kinds := [.word, .word]) (by decide)
      (fit2 naming_wordy.fits ht.fits) o
  exact ((struct_runs ctx hn o).append g).append (Runs.reader hn _)

theorem writer_runs {rt : Runtime} {msgs : List Message} {ctx : Ctx} {m : Message} (hn : Labelled msgs m)
    (hl : LabelsClosed ctx m) (o : List Open) : Runs rt o (messageWriter ctx m) o := by
  have ht : Wordy (className m ++ b!"_type") := (className_wordy hn.name hn.package).append' (by decide)
  unfold messageWriter
  split
  · exact Runs.call (before := []) (after := []) (kinds := [.word]) (by decide) (fit1 ht.fits) o
  · have a : Runs rt o [⟨.writeHeader, [className m ++ b!"_type", versionNaming]⟩] (.curly :: o) :=
      Runs.call (before := []) (after := [.curly]) (kinds := [.word, .word]) (by decide)
        (fit2 ht.fits naming_wordy.fits) o
    have c : Runs rt (.curly :: o) [⟨.writeFooter, []⟩] o :=
      Runs.call (before := [.curly]) (after := []) (kinds := []) (by decide) .nil o
    exact (a.append (items_run (fun f hf => hn.fields f (List.mem_filter.mp hf).1)
      (fun f hf => hl f (List.mem_filter.mp hf).1 (List.mem_filter.mp hf).2) _)).append c

theorem writer_fails (rt : Runtime) {msgs : List Message} {ctx : Ctx} {m : Message} (hn : Labelled msgs m)
    (ho : ctx.obfuscate = false) (hq : ∀ f ∈ m.fields, Persistent f = true → c!"\"" ∉ jsonNameIn ctx f)
    (hl : ¬ LabelsClosed ctx m) (o : List Open) : (atLine o).run (textOf rt (messageWriter ctx m)) = none := by
  have ht : Wordy (className m ++ b!"_type") := (className_wordy hn.name hn.package).append' (by decide)
  have hk : ∀ name, keyText ctx name = name := fun name => by rw [keyText, if_neg (by rw [ho]; decide)]
  have hex : ∃ f ∈ m.fields.filter Persistent, Closed (jsonNameIn ctx f) = false := by
    refine Classical.byContradiction fun hne => hl fun f hf hp => ?_
    rw [hk, ← Bool.not_eq_false]
    exact fun hc => hne ⟨f, List.mem_filter.mpr ⟨hf, hp⟩, hc⟩
  unfold messageWriter
  rw [if_neg (by obtain ⟨f, hf, _⟩ := hex; exact List.ne_nil_of_mem hf)]
  have a : Runs rt o [⟨.writeHeader, [className m ++ b!"_type", versionNaming]⟩] (.curly :: o) :=
    Runs.call (before := []) (after := [.curly]) (kinds := [.word, .word]) (by decide)
      (fit2 ht.fits naming_wordy.fits) o
  exact Runs.fail' _ (a.fail (items_fail rt (fun f hf => hn.fields f (List.mem_filter.mp hf).1) ho
    (fun f hf => hq f (List.mem_filter.mp hf).1 (List.mem_filter.mp hf).2) hex _))

theorem after_runs {rt : Runtime} {msgs : List Message} {ctx : Ctx} {m : Message} (hn : Labelled msgs m)
    (hl : LabelsClosed ctx m) (o : List Open) : Runs rt (.curly :: .curly :: o) (messageAfter ctx m) o := by
  have ht : Wordy (className m ++ b!"_type") := (className_wordy hn.name hn.package).append' (by decide)
  have g : Runs rt (.curly :: .curly :: o) [⟨.jsonModelFooter, [versionNaming]⟩] o :=
    Runs.call (before := [.curly, .curly]) (after := []) (kinds := [.word]) (by decide) (fit1 naming_wordy.fits) o
  have i : Runs rt (List.replicate (namespaces m.package).length .curly ++ o)
      [⟨.entity, [m.name, className m ++ b!"_type", versionNaming]⟩]
      (List.replicate (namespaces m.package).length .curly ++ o) :=
    Runs.call (before := []) (after := []) (kinds := [.word, .word, .word]) (by decide)
      (fit3 hn.name.wordy.fits ht.fits naming_wordy.fits) _
  have j : Runs rt o [⟨.entityJson, [className m, className m ++ b!"_type", versionNaming]⟩] o :=
    Runs.call (before := []) (after := []) (kinds := [.word, .word, .word]) (by decide)
      (fit3 (className_wordy hn.name hn.package).fits ht.fits naming_wordy.fits) _
  exact (((((((Runs.functions (by decide) (by decide) (by decide) (by decide) hn _).append
    (Runs.functions (by decide) (by decide) (by decide) (by decide) hn _)).append
    (Runs.functions (by decide) (by decide) (by decide) (by decide) hn _)).append
    (Runs.functions (by decide) (by decide) (by decide) (by decide) hn _)).append
    (Runs.table hl _)).append g).append
    (((Runs.opening hn.package o).append i).append (Runs.closing hn.package o))).append j

theorem message_runs {rt : Runtime} {msgs : List Message} {ctx : Ctx} {m : Message} (hn : Labelled msgs m)
    (hl : LabelsClosed ctx m) (o : List Open) : Runs rt o (messageCalls msgs ctx m) o := by
  rw [message_split]
  exact ((before_runs ctx hn o).append (writer_runs hn hl _)).append (after_runs hn hl o)

theorem message_fails (rt : Runtime) {msgs : List Message} {ctx : Ctx} {m : Message} (hn : Labelled msgs m)
    (ho : ctx.obfuscate = false) (hq : ∀ f ∈ m.fields, Persistent f = true → c!"\"" ∉ jsonNameIn ctx f)
    (hl : ¬ LabelsClosed ctx m) (o : List Open) : (atLine o).run (textOf rt (messageCalls msgs ctx m)) = none := by
  rw [message_split]
  exact Runs.fail' _ ((before_runs ctx hn o).fail (writer_fails rt hn ho hq hl _))

/-! ### The file -/

/-- The pieces of the template of the head of the file. -/
def headPieces : List Piece := (pieces (Tpl.text noRuntime .header) none).getD []
/-- … before the name of the file. -/
def headBefore : List Piece := headPieces.takeWhile (· ≠ .hole b!"2")
/-- … after it. -/
def headAfter : List Piece := headPieces.drop (headBefore.length + 1)

theorem head_split : headPieces = headBefore ++ .hole b!"2" :: headAfter := by decide +kernel

theorem head_text (rt : Runtime) (v n g : Bytes) : Call.text rt ⟨.header, [v, n, g]⟩ =
    filled [v, n, g] headBefore ++ n ++ filled [v, n, g] headAfter := by
  have h : pieces (Tpl.text rt .header) none = some headPieces := by
    rw [text_noRuntime rt (by intro p; exact nofun)]
    decide +kernel
  have hw : ∀ p ∈ headPieces, p.WF ∧ p ≠ .lit 8 := by decide +kernel
  have e : Tpl.text rt .header = templateText headPieces := (pieces_text _ none _ h).symm
  rw [Call.text]
  dsimp only
  rw [e, C40_substitution_partial [v, n, g] hw, head_split]
  generalize headBefore = p
  generalize headAfter = q
  have hl : filled [v, n, g] (.hole b!"2" :: q) = n ++ filled [v, n, g] q := by
    simp [filled, Piece.filled, numeral]
  rw [List.append_assoc, ← hl]
  exact List.flatMap_append

/-- A file name in a comment; it may end with a backslash. -/
theorem run_line {a : Bytes} (h : 10 ∉ a) (d : Bool) (o : List Open) (sp : Spot) (hs : sp = .line ∨ sp = .lineSplice) :
    Scan.run ⟨sp, d, o⟩ a = some ⟨.line, d, o⟩ ∨ Scan.run ⟨sp, d, o⟩ a = some ⟨.lineSplice, d, o⟩ := by
  induction a generalizing sp with
  | nil => rcases hs with rfl | rfl; exact Or.inl rfl; exact Or.inr rfl
  | cons c a ih =>
    have hc : c ≠ 10 := fun e => h (e ▸ List.mem_cons_self)
    have ht : 10 ∉ a := fun e => h (List.mem_cons_of_mem _ e)
    rw [Scan.run, Scan.step]
    rcases hs with rfl | rfl
    · dsimp only
      rw [if_neg hc]
      split
      · exact ih ht _ (Or.inr rfl)
      · exact ih ht _ (Or.inl rfl)
    · dsimp only
      split
      · exact ih ht _ (Or.inr rfl)
      · exact ih ht _ (Or.inl rfl)

theorem version_wordy : Wordy version := ⟨by decide, by decide⟩

theorem head_runs (rt : Runtime) {fileName : Bytes} (h : 10 ∉ fileName) (o : List Open) :
    Runs rt o [⟨.header, [version, fileName, makeGuard fileName]⟩] (.cond :: o) := by
  have h1 : runPieces [.word, .key, .word] (atLine []) headBefore = some ⟨.line, false, []⟩ := by decide +kernel
  have h2 : runPieces [.word, .key, .word] ⟨.line, false, []⟩ headAfter = some (atLine [.cond]) := by decide +kernel
  have h3 : runPieces [.word, .key, .word] ⟨.lineSplice, false, []⟩ headAfter = some (atLine [.cond]) := by decide +kernel
  have hh : ∀ p ∈ headBefore ++ headAfter, ∀ d, p = .hole d → numeral d ≠ 2 := by
    have : (headBefore ++ headAfter).all (fun p => match p with | .lit _ => true | .hole d => decide (numeral d ≠ 2)) = true := by
      decide +kernel
    rw [List.all_eq_true] at this
    rintro p hp d rfl
    exact of_decide_eq_true (this _ hp)
  unfold Runs
  rw [textOf_one, head_text]
  generalize headBefore = p at h1 hh ⊢
  generalize headAfter = q at h2 h3 hh ⊢
  -- the name does not occur in these parts
  have hs : ∀ ps, (∀ x ∈ ps, x ∈ p ++ q) →
      filled [version, fileName, makeGuard fileName] ps = filled [version, [], makeGuard fileName] ps := by
    intro ps hps
    unfold filled
    rw [List.flatMap_def, List.flatMap_def]
    congr 1
    refine List.map_congr_left fun x hx => ?_
    cases x with
    | lit c => rfl
    | hole d =>
      have := hh _ (hps _ hx) d rfl
      simp only [Piece.filled]
      match hnum : numeral d with
      | 0 => rfl
      | 1 => rfl
      | 2 => exact absurd hnum this
      | n + 3 => rfl
  rw [hs p fun x hx => List.mem_append_left _ hx, hs q fun x hx => List.mem_append_right _ hx]
  have hf : FitAll [.word, .key, .word] [version, [], makeGuard fileName] :=
    fit3 version_wordy.fits (Closed.key rfl) (guard_wordy fileName).fits
  have a := Scan.run_under o (runPieces_filled hf h1)
  have b := Scan.run_under o (runPieces_filled hf h2)
  have c := Scan.run_under o (runPieces_filled hf h3)
  rcases run_line h false o .line (Or.inl rfl) with k | k
  · exact Scan.run_some (Scan.run_some a k) b
  · exact Scan.run_some (Scan.run_some a k) c

theorem foot_runs (rt : Runtime) (fileName : Bytes) (o : List Open) :
    Runs rt (.cond :: o) [⟨.endGuard, [makeGuard fileName]⟩] o :=
  Runs.call (before := [.cond]) (after := []) (kinds := [.word]) (by decide) (fit1 (guard_wordy fileName).fits) o

theorem inclusions_run {rt : Runtime} (hrt : ∀ p, WellFormed (Call.text rt ⟨.runtime p, []⟩)) (ps : List Part) :
    Runs rt [] (ps.map fun p => ⟨.runtime p, []⟩) [] :=
  Runs.map fun p _ => by
    unfold Runs
    rw [textOf_one]
    exact hrt p

theorem digit_closed (z : Int) : Closed (decInt z) = true := by
  refine closed_plain fun c hc => ?_
  have : (48 ≤ c ∧ c ≤ 57) ∨ c = c!"-" := by
    unfold decInt at hc
    split at hc
    · rcases List.mem_cons.mp hc with rfl | hc
      · exact Or.inr rfl
      · exact Or.inl (decNat_digits' _ c hc)
    · exact Or.inl (decNat_digits' _ c hc)
  rcases this with h | rfl
  · refine ⟨?_, ?_, ?_⟩ <;> (rintro rfl; revert h; decide)
  · decide

theorem sorted_named {N : Nat} {text : Bytes} {t : Tree} (h : parse N text = .ok t)
    (hm : ∀ m ∈ (sortTree t).messages, MessageOk (sortTree t).messages m) {m : Message} (hmem : m ∈ (sortTree t).messages) :
    Labelled (sortTree t).messages m := by
  have hid : ∀ x ∈ (sortTree t).messages, CIdent x.name ∧ (∀ n ∈ namespaces x.package, CIdent n) ∧
      ∀ f ∈ x.fields, CIdent f.name := by
    intro x hx
    obtain ⟨a, ha, rfl⟩ := sorted_message hx
    obtain ⟨h1, _, h2, h3, _⟩ := C72_identifiers_partial h ha
    exact ⟨h1, h2, fun f hf => h3 f (mem_sortByName.mp hf)⟩
  obtain ⟨h1, h2, h3⟩ := hid m hmem
  refine ⟨h1, h2, h3, fun f hf ht => ?_⟩
  have hl := ((hm m hmem).2 f hf).2
  obtain ⟨i, x, hi, hx⟩ := hl ht
  refine ⟨x, ?_, ?_⟩
  · rw [targetOf, hi]; exact hx
  · have := hid x (List.mem_of_getElem? hx)
    exact className_wordy this.1 this.2.1

theorem messages_run {rt : Runtime} {msgs : List Message} {ctx : Ctx} {order : List Nat}
    (h : ∀ i ∈ order, ∀ m, msgs[i]? = some m → Labelled msgs m ∧ LabelsClosed ctx m) (o : List Open) :
    Runs rt o (order.flatMap fun i => ((msgs[i]?).map (messageCalls msgs ctx)).getD []) o := by
  induction order with
  | nil => rfl
  | cons i order ih =>
    rw [List.flatMap_cons]
    refine Runs.append ?_ (ih fun j hj => h j (List.mem_cons_of_mem _ hj))
    cases hi : msgs[i]? with
    | none => rfl
    | some m =>
      obtain ⟨h1, h2⟩ := h i List.mem_cons_self m hi
      exact message_runs h1 h2 o

theorem messages_fail (rt : Runtime) {msgs : List Message} {ctx : Ctx} {order : List Nat}
    (h : ∀ i ∈ order, ∀ m, msgs[i]? = some m → Labelled msgs m ∧
      ∀ f ∈ m.fields, Persistent f = true → c!"\"" ∉ jsonNameIn ctx f) (ho : ctx.obfuscate = false)
    (hex : ∃ i ∈ order, ∃ m, msgs[i]? = some m ∧ ¬ LabelsClosed ctx m) (o : List Open) :
    (atLine o).run (textOf rt (order.flatMap fun i => ((msgs[i]?).map (messageCalls msgs ctx)).getD [])) = none := by
  induction order with
  | nil => obtain ⟨i, hi, _⟩ := hex; cases hi
  | cons i order ih =>
    rw [List.flatMap_cons]
    have hrest := ih fun j hj => h j (List.mem_cons_of_mem _ hj)
    cases hi : msgs[i]? with
    | none =>
      refine hrest ?_
      obtain ⟨j, hj, m, hm, hc⟩ := hex
      rcases List.mem_cons.mp hj with rfl | hj
      · rw [hi] at hm; cases hm
      · exact ⟨j, hj, m, hm, hc⟩
    | some m =>
      obtain ⟨h1, h2⟩ := h i List.mem_cons_self m hi
      by_cases hc : LabelsClosed ctx m
      · refine (message_runs h1 hc o).fail (hrest ?_)
        obtain ⟨j, hj, m', hm, hc'⟩ := hex
        rcases List.mem_cons.mp hj with rfl | hj
        · rw [hi] at hm; injection hm with hm; subst hm; exact absurd hc hc'
        · exact ⟨j, hj, m', hm, hc'⟩
      · exact Runs.fail' _ (message_fails rt h1 ho h2 hc o)

/-- **C83 (exactly).** Whenever the generator succeeds, and the name of the schema file has no line feed, the generated file
has the outer form of a C++ file — comments, literals and directives end, brackets and conditionals are properly nested — if
and only if the JSON names that are written as they are can stand between quotes: no line feed, and no backslash that takes the closing quote with it. -/
theorem C83_form_iff {rt : Runtime} (hrt : ∀ p, WellFormed (Call.text rt ⟨.runtime p, []⟩)) {N : Nat} {text : Bytes} {t : Tree}
    (h : parse N text = .ok t) {fileName : Bytes} (hn : 10 ∉ fileName) (hok : (output fileName t).res = .ok ()) :
    WellFormed (textOf rt (output fileName t).calls) ↔
      ((ctxOf t.options).obfuscate = false → (ctxOf t.options).numberNames = false →
        ∀ m ∈ t.messages, ∀ f ∈ m.fields, Persistent f = true → Closed (givenName f) = true) := by
  have hl := (sortTree_same t).linked (parse_linked h)
  obtain ⟨h1, order, h2, h3⟩ := generate_ok hok
  obtain ⟨_, _, hall⟩ := sortAll_ok h2
  have hnamed : ∀ i ∈ order, ∀ m, (sortTree t).messages[i]? = some m → Labelled (sortTree t).messages m :=
    fun i _ m hm => sorted_named h h3 (List.mem_of_getElem? hm)
  have hctx : ctxOf (sortTree t).options = ctxOf t.options := rfl
  rw [output, generate_eq h1 h2 hl h3, fileCalls, hctx]
  generalize hc : ctxOf t.options = ctx
  have hq : ∀ m ∈ (sortTree t).messages, ∀ f ∈ m.fields, Persistent f = true → c!"\"" ∉ jsonNameIn ctx f := by
    intro m hm f hf hp
    unfold jsonNameIn
    split
    · intro hc
      have : Closed (decInt f.index) = true := digit_closed _
      have key : ∀ c ∈ decInt f.index, c ≠ c!"\"" := by
        intro c hc
        unfold decInt at hc
        have hd : ∀ n, ∀ c ∈ decNat n, c ≠ c!"\"" := fun n c hc e => by
          have := decNat_digits' n c hc
          rw [e] at this
          revert this; decide
        split at hc
        · rcases List.mem_cons.mp hc with rfl | hc
          · decide
          · exact hd _ c hc
        · exact hd _ c hc
      exact key _ hc rfl
    · exact fun hc => ((((h3 m hm).2 f hf).1.2 hp).2 _ hc).2 rfl
  have hincl : ∀ n, Runs rt [] (inclusionCalls n) [] := fun n => inclusions_run hrt _
  constructor
  · intro hw ho hnn m hm f hf hp
    refine Classical.byContradiction fun hcl => ?_
    have hbad : ∃ i ∈ order, ∃ m, (sortTree t).messages[i]? = some m ∧ ¬ LabelsClosed ctx m := by
      have hm' : { m with fields := sortByName m.fields } ∈ (sortTree t).messages := List.mem_map.mpr ⟨m, hm, rfl⟩
      obtain ⟨i, hi, he⟩ := List.getElem_of_mem hm'
      refine ⟨i, hall i hi, _, (List.getElem?_eq_some_iff.mpr ⟨hi, he⟩), fun hlc => hcl ?_⟩
      have := hlc f (mem_sortByName.mpr hf) hp
      rw [keyText, if_neg (by rw [ho]; decide), jsonNameIn, if_neg (by rw [hnn]; decide)] at this
      exact this
    have := messages_fail rt (fun i hi m hm => ⟨hnamed i hi m hm, hq m (List.mem_of_getElem? hm)⟩) ho hbad [.cond]
    have := (hincl (needs (sortTree t).messages)).fail (Runs.fail' [⟨.endGuard, [makeGuard fileName]⟩] ((head_runs rt hn []).fail this))
    unfold WellFormed at hw
    have e : Scan.begin = atLine [] := rfl
    rw [e, this] at hw
    cases hw
  · intro hcl
    refine (hincl _).append (((head_runs rt hn []).append (messages_run (fun i hi m hm => ⟨hnamed i hi m hm, ?_⟩) _)).append
      (foot_runs rt fileName []))
    obtain ⟨a, ha, rfl⟩ := sorted_message (List.mem_of_getElem? hm)
    intro f hf hp
    unfold keyText
    split
    · exact closed_obfuscated _
    · rename_i ho
      unfold jsonNameIn
      split
      · exact digit_closed _
      · rename_i hnn
        exact hcl (Bool.eq_false_iff.mpr ho) (Bool.eq_false_iff.mpr hnn) a ha f (mem_sortByName.mp hf) hp

/-- **C83.** For the runtime of this program. -/
theorem C83_shipped_iff {N : Nat} {text : Bytes} {t : Tree} (h : parse N text = .ok t) {fileName : Bytes} (hn : 10 ∉ fileName)
    (hok : (output fileName t).res = .ok ()) :
    WellFormed (textOf shipped (output fileName t).calls) ↔
      ((ctxOf t.options).obfuscate = false → (ctxOf t.options).numberNames = false →
        ∀ m ∈ t.messages, ∀ f ∈ m.fields, Persistent f = true → Closed (givenName f) = true) :=
  C83_form_iff shipped_wellFormed h hn hok

/-- **C83.** Numbers as names and obfuscated names are always fine, and so are schemas that give no names by options. -/
theorem C83_form {N : Nat} {text : Bytes} {t : Tree} (h : parse N text = .ok t) {fileName : Bytes} (hn : 10 ∉ fileName)
    (hok : (output fileName t).res = .ok ()) (hc : (ctxOf t.options).obfuscate = true ∨ (ctxOf t.options).numberNames = true ∨
      ∀ m ∈ t.messages, ∀ f ∈ m.fields, f.options.find b!"name" = none) :
    WellFormed (textOf shipped (output fileName t).calls) := by
  refine (C83_shipped_iff h hn hok).mpr fun ho hnn m hm f hf _ => ?_
  rcases hc with hc | hc | hc
  · rw [ho] at hc; cases hc
  · rw [hnn] at hc; cases hc
  · have e : givenName f = f.name := by rw [givenName, hc m hm f hf]
    rw [e]
    obtain ⟨_, _, _, h3, _⟩ := C72_identifiers_partial h hm
    refine closed_plain fun c hc => ?_
    have := (h3 f hf).wordy.1 c hc
    refine ⟨?_, ?_, ?_⟩ <;> (rintro rfl; revert this; decide)

example (fileName : Bytes) (hn : 10 ∉ fileName) : WellFormed (textOf shipped (output fileName demoTree).calls) :=
  (C83_shipped_iff demo_tree hn (demo_ok fileName)).mpr fun _ _ => by decide +kernel

/-- A schema with a name that ends with a backslash. -/
def backslashText : Bytes := b!"message M { int32 size = 1 [name=\"s\\\"]; }"
def backslashTree : Tree := treeOf (parse 200 backslashText)
theorem backslash_parse : parse 200 backslashText = .ok backslashTree := by decide +kernel
theorem backslash_ok : (output b!"b.proto" backslashTree).res = .ok () := by decide +kernel

/-- **C83 (negation).** A name that ends with a backslash takes the closing quote with it; the parser and the generator
accept it. -/
theorem C83_is_false : ¬ WellFormed (textOf shipped (output b!"b.proto" backslashTree).calls) := by
  rw [C83_shipped_iff backslash_parse (by decide) backslash_ok]
  intro h
  have := h (by decide +kernel) (by decide +kernel)
  revert this
  decide +kernel

theorem head_before (rt : Runtime) (fileName : Bytes) (o : List Open) : ∃ x y,
    Call.text rt ⟨.header, [version, fileName, makeGuard fileName]⟩ = x ++ fileName ++ y ∧
    (atLine o).run x = some ⟨.line, false, o⟩ := by
  refine ⟨_, _, head_text rt _ _ _, ?_⟩
  have h1 : runPieces [.word] (atLine []) headBefore = some ⟨.line, false, []⟩ := by decide +kernel
  have hh : ∀ p ∈ headBefore, ∀ d, p = .hole d → numeral d = 1 := by
    have : headBefore.all (fun p => match p with | .lit _ => true | .hole d => decide (numeral d = 1)) = true := by
      decide +kernel
    rw [List.all_eq_true] at this
    rintro p hp d rfl
    exact of_decide_eq_true (this _ hp)
  generalize headBefore = p at h1 hh ⊢
  have hs : filled [version, fileName, makeGuard fileName] p = filled [version] p := by
    unfold filled
    rw [List.flatMap_def, List.flatMap_def]
    congr 1
    refine List.map_congr_left fun x hx => ?_
    cases x with
    | lit c => rfl
    | hole d => simp only [Piece.filled, hh _ hx d rfl]; rfl
  rw [hs]
  exact Scan.run_under o (runPieces_filled (fit1 version_wordy.fits) h1)

/-- **C83 (negation).** A line feed in the name of the schema file ends the comment it is written in; what follows is code. -/
theorem C83_line_feed {rt : Runtime} (hrt : ∀ p, WellFormed (Call.text rt ⟨.runtime p, []⟩)) {N : Nat} {text : Bytes} {t : Tree}
    (h : parse N text = .ok t) {a b : Bytes} (ha : ∀ c ∈ a, c ≠ 10 ∧ c ≠ c!"\\")
    (hok : (output (a ++ b!"\n}" ++ b) t).res = .ok ()) :
    ¬ WellFormed (textOf rt (output (a ++ b!"\n}" ++ b) t).calls) := by
  have hl := (sortTree_same t).linked (parse_linked h)
  obtain ⟨h1, order, h2, h3⟩ := generate_ok hok
  rw [output, generate_eq h1 h2 hl h3, fileCalls]
  have hhead : (atLine []).run (textOf rt [⟨.header, [version, a ++ b!"\n}" ++ b, makeGuard (a ++ b!"\n}" ++ b)]⟩]) = none := by
    obtain ⟨x, y, e, hx⟩ := head_before rt (a ++ b!"\n}" ++ b) []
    rw [textOf_one, e]
    have hl : Scan.run ⟨.line, false, []⟩ a = some ⟨.line, false, []⟩ := by
      clear e hok h1 h2
      induction a with
      | nil => rfl
      | cons c a ih =>
        have hc := ha c List.mem_cons_self
        rw [Scan.run, Scan.step]
        dsimp only
        rw [if_neg hc.1, if_neg hc.2]
        exact ih (fun c hc => ha c (List.mem_cons_of_mem _ hc))
    rw [Scan.run_append, Scan.run_append, hx]
    dsimp only [Option.bind]
    rw [Scan.run_append, Scan.run_append, hl]
    rfl
  unfold WellFormed
  have hi : Runs rt [] (inclusionCalls (needs (sortTree t).messages)) [] := inclusions_run hrt _
  intro hw
  have := (hi.fail (Runs.fail' _ (Runs.fail' _ hhead))).symm.trans hw
  cases this

example (rt : Runtime) (hrt : ∀ p, WellFormed (Call.text rt ⟨.runtime p, []⟩)) :
    ¬ WellFormed (textOf rt (output b!"x\n}.proto" demoTree).calls) :=
  C83_line_feed hrt demo_tree (a := b!"x") (b := b!".proto") (by decide) (demo_ok _)

end PG.Gen
