import Verif.Proofs.CppLex
import Verif.Proofs.GenDecl
import Verif.Props.Lexical
/-
The tokens of the functions of a message.
-/
set_option autoImplicit false
namespace PG.Cpp
open PG.Gen PG.Proto

/-- A word. -/
abbrev w (b : Bytes) : STok := .tok (.word b)
/-- An operator. -/
abbrev o (b : Bytes) : STok := .tok (.op b)
/-- A string literal. -/
abbrev s (b : Bytes) : STok := .tok (.str b)
/-- A character literal. -/
abbrev q (b : Bytes) : STok := .tok (.chr b)

/-- The arguments of the templates for functions. -/
def kindsOf : Tpl → List Hole
  | .jsonModelHeader => [.known versionNaming, .type]
  | .jsonModelFooter => [.known versionNaming]
  | .readFieldEmpty | .readFieldHeader | .writeEmpty | .emptyEmpty | .emptyHeader | .clearEmpty | .clearHeader | .equalEmpty | .equalHeader | .swapEmpty | .swapHeader => [.type]
  | .readFieldItem => [.word, .word]
  | .writeHeader => [.type, .known versionNaming]
  | .writeItem => [.word, .label]
  | .emptyItem | .clearItem | .equalItem | .swapItem => [.word]
  | .indexItem => [.key, .word]
  | _ => []

/-- The tokens of the templates for functions (source/cpp/code.txt:48-245). -/
def stoks : Tpl → List STok
  | .jsonModelHeader =>
    [w b!"namespace", w b!"protogen_3_0_0", o b!"{", w b!"template", o b!"<", o b!">", w b!"struct", w b!"json", o b!"<",
     .hole 1, o b!">", o b!"{", w b!"static", w b!"int", w b!"read", o b!"(", w b!"json_context", o b!"&", w b!"ctx", o b!",",
     .hole 1, o b!"&", w b!"value", o b!")", o b!"{", w b!"return", w b!"read_object", o b!"(", w b!"ctx", o b!",", w b!"value",
     o b!")", o b!";", o b!"}"]
  | .jsonModelFooter =>
    [o b!"}", o b!";", o b!"}"]
  | .readFieldEmpty =>
    [w b!"static", w b!"int", w b!"read_field", o b!"(", w b!"json_context", o b!"&", w b!"ctx", o b!",", w b!"const",
     w b!"std", o b!"::", w b!"string", o b!"&", w b!"name", o b!",", .hole 0, o b!"&", w b!"value", o b!")", o b!"{", o b!"(",
     w b!"void", o b!")", w b!"ctx", o b!";", o b!"(", w b!"void", o b!")", w b!"name", o b!";", o b!"(", w b!"void", o b!")",
     w b!"value", o b!";", w b!"return", w b!"PGR_NIL", o b!";", o b!"}"]
  | .readFieldHeader =>
    [w b!"static", w b!"int", w b!"read_field", o b!"(", w b!"json_context", o b!"&", w b!"ctx", o b!",", w b!"const",
     w b!"std", o b!"::", w b!"string", o b!"&", w b!"name", o b!",", .hole 0, o b!"&", w b!"value", o b!")", o b!"{",
     w b!"int", w b!"idx", o b!"=", w b!"index", o b!"(", w b!"name", o b!")", o b!";", w b!"if", o b!"(", w b!"idx", o b!"<",
     w b!"0", o b!")", w b!"return", w b!"PGR_NIL", o b!";", w b!"switch", o b!"(", w b!"idx", o b!")", o b!"{"]
  | .readFieldItem =>
    [w b!"case", .hole 0, o b!":", w b!"return", w b!"json", o b!"<", w b!"decltype", o b!"(", w b!"value", o b!".", .hole 1,
     o b!")", o b!">", o b!"::", w b!"read", o b!"(", w b!"ctx", o b!",", w b!"value", o b!".", .hole 1, o b!")", o b!";"]
  | .readFieldFooter =>
    [w b!"default", o b!":", w b!"return", w b!"PGR_NIL", o b!";", o b!"}", o b!"}"]
  | .writeEmpty =>
    [w b!"static", w b!"int", w b!"write", o b!"(", w b!"json_context", o b!"&", w b!"ctx", o b!",", w b!"const", .hole 0,
     o b!"&", w b!"value", o b!")", o b!"{", o b!"(", w b!"void", o b!")", w b!"value", o b!";", o b!"(", o b!"*", w b!"ctx",
     o b!".", w b!"os", o b!")", o b!"<<", s b!"{}", o b!";", w b!"return", w b!"PGR_OK", o b!";", o b!"}"]
  | .writeHeader =>
    [w b!"static", w b!"int", w b!"write", o b!"(", w b!"json_context", o b!"&", w b!"ctx", o b!",", w b!"const", .hole 0,
     o b!"&", w b!"value", o b!")", o b!"{", w b!"bool", w b!"f", o b!"=", w b!"true", o b!";", o b!"(", o b!"*", w b!"ctx",
     o b!".", w b!"os", o b!")", o b!"<<", q b!"{", o b!";"]
  | .writeItem =>
    [w b!"if", o b!"(", w b!"ctx", o b!".", w b!"params", o b!".", w b!"serialize_null", o b!"||", o b!"!", w b!"json", o b!"<",
     w b!"decltype", o b!"(", w b!"value", o b!".", .hole 0, o b!")", o b!">", o b!"::", w b!"empty", o b!"(", w b!"value",
     o b!".", .hole 0, o b!")", o b!")", o b!"{", o b!"(", o b!"*", w b!"ctx", o b!".", w b!"os", o b!")", o b!"<<", o b!"(",
     w b!"f", o b!"?", s b!"\\\"", o b!":", s b!",\\\"", o b!")", o b!"<<", .hole 1, o b!"<<", s b!"\\\":", o b!";", w b!"json",
     o b!"<", w b!"decltype", o b!"(", w b!"value", o b!".", .hole 0, o b!")", o b!">", o b!"::", w b!"write", o b!"(",
     w b!"ctx", o b!",", w b!"value", o b!".", .hole 0, o b!")", o b!";", w b!"f", o b!"=", w b!"false", o b!";", o b!"}"]
  | .writeFooter =>
    [o b!"(", o b!"*", w b!"ctx", o b!".", w b!"os", o b!")", o b!"<<", q b!"}", o b!";", w b!"return", w b!"PGR_OK", o b!";",
     o b!"}"]
  | .emptyEmpty =>
    [w b!"static", w b!"bool", w b!"empty", o b!"(", w b!"const", .hole 0, o b!"&", w b!"value", o b!")", o b!"{", o b!"(",
     w b!"void", o b!")", w b!"value", o b!";", w b!"return", w b!"true", o b!";", o b!"}"]
  | .emptyHeader =>
    [w b!"static", w b!"bool", w b!"empty", o b!"(", w b!"const", .hole 0, o b!"&", w b!"value", o b!")", o b!"{", w b!"return"]
  | .emptyItem =>
    [w b!"json", o b!"<", w b!"decltype", o b!"(", w b!"value", o b!".", .hole 0, o b!")", o b!">", o b!"::", w b!"empty",
     o b!"(", w b!"value", o b!".", .hole 0, o b!")", o b!"&&"]
  | .emptyFooter =>
    [w b!"true", o b!";", o b!"}"]
  | .clearEmpty =>
    [w b!"static", w b!"void", w b!"clear", o b!"(", .hole 0, o b!"&", w b!"value", o b!")", o b!"{", o b!"(", w b!"void",
     o b!")", w b!"value", o b!";", o b!"}"]
  | .clearHeader =>
    [w b!"static", w b!"void", w b!"clear", o b!"(", .hole 0, o b!"&", w b!"value", o b!")", o b!"{"]
  | .clearItem =>
    [w b!"json", o b!"<", w b!"decltype", o b!"(", w b!"value", o b!".", .hole 0, o b!")", o b!">", o b!"::", w b!"clear",
     o b!"(", w b!"value", o b!".", .hole 0, o b!")", o b!";"]
  | .clearFooter =>
    [o b!"}"]
  | .equalEmpty =>
    [w b!"static", w b!"bool", w b!"equal", o b!"(", w b!"const", .hole 0, o b!"&", w b!"a", o b!",", w b!"const", .hole 0,
     o b!"&", w b!"b", o b!")", o b!"{", o b!"(", w b!"void", o b!")", w b!"a", o b!";", o b!"(", w b!"void", o b!")", w b!"b",
     o b!";", w b!"return", w b!"true", o b!";", o b!"}"]
  | .equalHeader =>
    [w b!"static", w b!"bool", w b!"equal", o b!"(", w b!"const", .hole 0, o b!"&", w b!"a", o b!",", w b!"const", .hole 0,
     o b!"&", w b!"b", o b!")", o b!"{", w b!"return"]
  | .equalItem =>
    [w b!"json", o b!"<", w b!"decltype", o b!"(", w b!"a", o b!".", .hole 0, o b!")", o b!">", o b!"::", w b!"equal", o b!"(",
     w b!"a", o b!".", .hole 0, o b!",", w b!"b", o b!".", .hole 0, o b!")", o b!"&&"]
  | .equalFooter =>
    [w b!"true", o b!";", o b!"}"]
  | .swapEmpty =>
    [w b!"static", w b!"void", w b!"swap", o b!"(", .hole 0, o b!"&", w b!"a", o b!",", .hole 0, o b!"&", w b!"b", o b!")",
     o b!"{", o b!"(", w b!"void", o b!")", w b!"a", o b!";", o b!"(", w b!"void", o b!")", w b!"b", o b!";", o b!"}"]
  | .swapHeader =>
    [w b!"static", w b!"void", w b!"swap", o b!"(", .hole 0, o b!"&", w b!"a", o b!",", .hole 0, o b!"&", w b!"b", o b!")",
     o b!"{"]
  | .swapItem =>
    [w b!"json", o b!"<", w b!"decltype", o b!"(", w b!"a", o b!".", .hole 0, o b!")", o b!">", o b!"::", w b!"swap", o b!"(",
     w b!"a", o b!".", .hole 0, o b!",", w b!"b", o b!".", .hole 0, o b!")", o b!";"]
  | .swapFooter =>
    [o b!"}"]
  | .indexEmpty =>
    [w b!"static", w b!"int", w b!"index", o b!"(", w b!"const", w b!"std", o b!"::", w b!"string", o b!"&", w b!"name",
     o b!")", o b!"{", o b!"(", w b!"void", o b!")", w b!"name", o b!";", w b!"return", o b!"-", w b!"1", o b!";", o b!"}"]
  | .indexHeader =>
    [w b!"static", w b!"int", w b!"index", o b!"(", w b!"const", w b!"std", o b!"::", w b!"string", o b!"&", w b!"name",
     o b!")", o b!"{", w b!"const", w b!"std", o b!"::", w b!"string", o b!"&", w b!"temp", o b!"=", w b!"name", o b!";",
     w b!"static", w b!"const", w b!"std", o b!"::", w b!"unordered_map", o b!"<", w b!"std", o b!"::", w b!"string", o b!",",
     w b!"int", o b!">", w b!"FIELDS", o b!"=", o b!"{"]
  | .indexHeaderObf =>
    [w b!"static", w b!"int", w b!"index", o b!"(", w b!"const", w b!"std", o b!"::", w b!"string", o b!"&", w b!"name",
     o b!")", o b!"{", w b!"std", o b!"::", w b!"string", w b!"temp", o b!"=", w b!"reveal", o b!"(", w b!"name", o b!")",
     o b!";", w b!"static", w b!"const", w b!"std", o b!"::", w b!"unordered_map", o b!"<", w b!"std", o b!"::", w b!"string",
     o b!",", w b!"int", o b!">", w b!"FIELDS", o b!"=", o b!"{"]
  | .indexItem =>
    [o b!"{", .hole 0, o b!",", .hole 1, o b!"}", o b!","]
  | .indexFooter =>
    [o b!"}", o b!";", w b!"auto", w b!"it", o b!"=", w b!"FIELDS", o b!".", w b!"find", o b!"(", w b!"temp", o b!")", o b!";",
     w b!"return", o b!"(", w b!"it", o b!"==", w b!"FIELDS", o b!".", w b!"end", o b!"(", o b!")", o b!")", o b!"?", o b!"-",
     w b!"1", o b!":", w b!"it", o b!"->", w b!"second", o b!";", o b!"}"]
  | _ => []

/-- These templates. -/
def functionTpls : List Tpl :=
  [.jsonModelHeader, .jsonModelFooter, .readFieldEmpty, .readFieldHeader, .readFieldItem, .readFieldFooter, .writeEmpty,
   .writeHeader, .writeItem, .writeFooter, .emptyEmpty, .emptyHeader, .emptyItem, .emptyFooter, .clearEmpty, .clearHeader,
   .clearItem, .clearFooter, .equalEmpty, .equalHeader, .equalItem, .equalFooter, .swapEmpty, .swapHeader, .swapItem,
   .swapFooter, .indexEmpty, .indexHeader, .indexHeaderObf, .indexItem, .indexFooter]

theorem stoks_right : ∀ t ∈ functionTpls, tokensOf (kindsOf t) (t.text noRuntime) = some (stoks t) := by decide +kernel

theorem not_runtime : ∀ t ∈ functionTpls, ∀ p, t ≠ .runtime p := by
  have h : (functionTpls.all fun t => match t with | .runtime _ => false | _ => true) = true := by decide
  rintro t ht p rfl
  exact absurd (List.all_eq_true.mp h _ ht) (by simp)

/-- The tokens of a part of the file. -/
def Toks (rt : Runtime) (cs : List Call) (ts : List Tok) : Prop := Lex.run .start (textOf rt cs) = some (ts, .start)

theorem Toks.append {rt : Runtime} {a b : List Call} {x y : List Tok} (h : Toks rt a x) (k : Toks rt b y) :
    Toks rt (a ++ b) (x ++ y) := by
  unfold Toks
  rw [textOf_append]
  exact Lex.run_some h k

theorem Toks.call (rt : Runtime) {tpl : Tpl} {args : List Bytes} {hs : List (List Tok)} (h : tpl ∈ functionTpls)
    (hf : FitsAll (kindsOf tpl) args hs) : Toks rt [⟨tpl, args⟩] (inst hs (stoks tpl)) := by
  unfold Toks
  rw [textOf_one, Call.text, text_noRuntime rt (not_runtime _ h)]
  exact tokens_print hf (stoks_right _ h)

theorem Toks.map {α : Type} {rt : Runtime} {f : α → Call} {g : α → List Tok} {l : List α} (h : ∀ x ∈ l, Toks rt [f x] (g x)) :
    Toks rt (l.map f) (l.flatMap g) := by
  induction l with
  | nil => rfl
  | cons x l ih =>
    rw [List.flatMap_cons]
    exact Toks.append (a := [f x]) (h x (by simp)) (ih fun y hy => h y (List.mem_cons_of_mem _ hy))

theorem Toks.eq {rt : Runtime} {a b : List Call} {x y : List Tok} (h : Toks rt a x) (e : a = b) (e' : x = y) : Toks rt b y := e ▸ e' ▸ h

/-! ### The arguments -/

/-- Identifiers separated by `::`. -/
def pathToks (ns : List Bytes) : List Tok := ns.flatMap fun n => [.op b!"::", .word n]

/-- The name of the structure of a message. -/
def typeToks (m : Message) : List Tok := pathToks (namespaces m.package ++ [m.name ++ b!"_type"])

/-- The label of a field in the writer. -/
def labelToks (ctx : Ctx) (name : Bytes) : List Tok :=
  if ctx.obfuscate then [.word b!"reveal", .op b!"(", .str (keyText ctx name), .op b!")"] else [.str (keyText ctx name)]

theorem cident_words {a : Bytes} (h : CIdent a) : a ≠ [] ∧ ∀ c ∈ a, isWord c = true := by
  obtain ⟨b, r, rfl, hb, hr⟩ := h
  refine ⟨by simp, fun c hc => ?_⟩
  unfold isWord
  rcases List.mem_cons.mp hc with rfl | hc
  · rcases hb with h | h | h <;> simp [h]
  · rcases hr c hc with h | h | h | h <;> simp [h]

theorem decNat_words (n : Nat) : decNat n ≠ [] ∧ ∀ c ∈ decNat n, isWord c = true := by
  refine ⟨decNat_ne_nil n, fun c hc => ?_⟩
  unfold isWord
  simp [decNat_digits' n c hc]

theorem word_fits {a : Bytes} (h : a ≠ [] ∧ ∀ c ∈ a, isWord c = true) : Hole.Fits .word a [.word a] := ⟨h.1, h.2, rfl⟩

/-- The tokens of `::a::b`, the last of them incomplete. -/
theorem path_run {ns : List Bytes} (hs : ∀ n ∈ ns, CIdent n) {n : Bytes} (hn : CIdent n) (l : Lex) (pre : List Tok)
    (hl : ∀ b, Lex.run l (c!":" :: b) = (Lex.run (.op c!":") b).map fun r => (pre ++ r.1, r.2)) :
    ∃ us, Lex.run l ((ns ++ [n]).flatMap (b!"::" ++ ·)) = some (us, .word n) ∧ us ++ [.word n] = pre ++ pathToks (ns ++ [n]) := by
  have colon : ∀ b, Lex.run (.op c!":") (c!":" :: b) = (Lex.run .start b).map fun r => (.op b!"::" :: r.1, r.2) := by
    intro b
    rw [Lex.run]
    have e : Lex.step (.op c!":") c!":" = some ([.op b!"::"], .start) := by decide
    rw [e]
    rfl
  induction ns generalizing l pre with
  | nil =>
    refine ⟨pre ++ [.op b!"::"], ?_, by simp [pathToks]⟩
    simp only [List.nil_append, List.flatMap_cons, List.flatMap_nil, List.append_nil, List.cons_append]
    rw [hl, colon, run_first (cident_words hn).1 (cident_words hn).2]
    rfl
  | cons k ns ih =>
    have hk := cident_words (hs k (by simp))
    obtain ⟨us, h1, h2⟩ := ih (fun x hx => hs x (List.mem_cons_of_mem _ hx)) (.word k) [.word k] (by
      intro b
      rw [Lex.run]
      have e : Lex.step (.word k) c!":" = some ([.word k], .op c!":") := by
        have e1 : isWord c!":" = false := by decide
        have e2 : Lex.first c!":" = .op c!":" := by decide
        simp [Lex.step, e1, e2]
      rw [e]
      rfl)
    refine ⟨pre ++ .op b!"::" :: us, ?_, ?_⟩
    · simp only [List.cons_append, List.flatMap_cons, List.nil_append]
      rw [hl, colon, Lex.run_append, run_first hk.1 hk.2]
      simp only [Option.bind_some]
      rw [show (fun x : Bytes => c!":" :: c!":" :: x) = (b!"::" ++ ·) from rfl, h1]
      rfl
    · simp only [List.append_assoc, List.cons_append]
      rw [h2]
      simp [pathToks]

theorem type_fits {m : Message} (hn : CIdent m.name) (hp : ∀ n ∈ namespaces m.package, CIdent n) :
    Hole.Fits .type (className m ++ b!"_type") (typeToks m) := by
  obtain ⟨us, h1, h2⟩ := path_run hp (CIdent.type hn) .start [] (by
    intro b
    rw [Lex.run]
    have e : Lex.step .start c!":" = some ([], .op c!":") := by decide
    rw [e]
    simp)
  refine ⟨_, us, _, ?_, h1, h2.symm⟩
  simp [className]

theorem str_run {a : Bytes} (h : Gen.Closed a = true) (hl : 10 ∉ a) (x : Bytes) : Lex.run (.str x) a = some ([], .str (x ++ a)) := by
  match a with
  | [] => simp [Lex.run]
  | [c] =>
    simp only [Gen.Closed, Bool.and_eq_true, decide_eq_true_eq] at h
    rw [Lex.run, Lex.step, if_neg h.1.2, if_neg h.1.1, if_neg h.2]
    rfl
  | c :: e :: rest =>
    have hl' : 10 ∉ e :: rest := fun h => hl (List.mem_cons_of_mem _ h)
    rw [Gen.Closed] at h
    split at h
    · rename_i hc
      subst hc
      have := str_run h (fun h => hl' (List.mem_cons_of_mem _ h)) (x ++ [c!"\\", e])
      rw [Lex.run, Lex.step, if_neg (by decide), if_neg (by decide), if_pos rfl]
      simp only [Option.bind_some]
      rw [Lex.run, Lex.step, if_neg (fun h : e = 10 => hl' (by rw [h]; exact List.mem_cons_self))]
      simp only [Option.bind_some, List.append_assoc, List.cons_append, List.nil_append]
      rw [this]
      simp
    · rename_i hc
      simp only [Bool.and_eq_true, decide_eq_true_eq] at h
      have := str_run h.2 hl' (x ++ [c])
      rw [Lex.run, Lex.step, if_neg h.1.2, if_neg h.1.1, if_neg hc]
      simp only [Option.bind_some]
      rw [this]
      simp

/-- A name that is within a literal. -/
def Within (ctx : Ctx) (name : Bytes) : Prop := Gen.Closed (keyText ctx name) = true ∧ 10 ∉ keyText ctx name

theorem key_fits {ctx : Ctx} {name : Bytes} (h : Within ctx name) : Hole.Fits .key (keyText ctx name) [.str (keyText ctx name)] :=
  ⟨str_run h.1 h.2 [], rfl⟩

theorem label_fits {ctx : Ctx} {name : Bytes} (h : Within ctx name) : Hole.Fits .label (labelText ctx name) (labelToks ctx name) := by
  show Lex.run .start (labelText ctx name ++ [32]) = some (labelToks ctx name, .start)
  unfold labelText labelToks
  have hk := str_run h.1 h.2 []
  split
  · rename_i ho
    rw [keyText, if_pos ho] at hk ⊢
    refine Lex.run_some (s := [.word b!"reveal", .op b!"(", .str (obfuscateText name)]) (m := .op c!")") (t := [.op b!")"]) ?_ (by decide)
    refine Lex.run_some (s := [.word b!"reveal", .op b!"("]) (m := .str (obfuscateText name)) (t := [.str (obfuscateText name)]) ?_ (by rfl)
    exact Lex.run_some (s := [.word b!"reveal", .op b!"("]) (m := .str []) (t := []) (by decide) hk
  · rename_i ho
    rw [keyText, if_neg ho] at hk ⊢
    refine Lex.run_some (s := [.str name]) (m := .start) (t := []) ?_ (by decide)
    refine Lex.run_some (s := []) (m := .str name) (t := [.str name]) ?_ (by rfl)
    exact Lex.run_some (s := []) (m := .str []) (t := []) (by decide) hk

/-! ### The functions -/

/-- The tokens of a function about all fields. -/
def functionToks (empty head item foot : Tpl) (m : Message) : List Tok :=
  if m.fields = [] then inst [typeToks m] (stoks empty)
  else inst [typeToks m] (stoks head) ++ m.fields.flatMap (fun f => inst [[.word f.name]] (stoks item)) ++ inst [] (stoks foot)

/-- The tokens of `read_field`. -/
def readToks (m : Message) : List Tok :=
  let fs := m.fields.filter Persistent
  if fs = [] then inst [typeToks m] (stoks .readFieldEmpty)
  else inst [typeToks m] (stoks .readFieldHeader) ++
    fs.zipIdx.flatMap (fun x => inst [[.word (decNat x.2)], [.word x.1.name]] (stoks .readFieldItem)) ++
    inst [] (stoks .readFieldFooter)

/-- The tokens of `write`. -/
def writeToks (ctx : Ctx) (m : Message) : List Tok :=
  let fs := m.fields.filter Persistent
  if fs = [] then inst [typeToks m] (stoks .writeEmpty)
  else inst [typeToks m, []] (stoks .writeHeader) ++
    fs.flatMap (fun f => inst [[.word f.name], labelToks ctx (jsonNameIn ctx f)] (stoks .writeItem)) ++ inst [] (stoks .writeFooter)

/-- The tokens of `index`. -/
def indexToks (ctx : Ctx) (m : Message) : List Tok :=
  let fs := m.fields.filter Persistent
  if fs = [] then inst [] (stoks .indexEmpty)
  else inst [] (stoks (if ctx.obfuscate then .indexHeaderObf else .indexHeader)) ++
    fs.zipIdx.flatMap (fun x => inst [[.str (keyText ctx (jsonNameIn ctx x.1))], [.word (decNat x.2)]] (stoks .indexItem)) ++
    inst [] (stoks .indexFooter)

/-- The tokens of the class. -/
def wrapperToks (ctx : Ctx) (m : Message) : List Tok :=
  inst [[], typeToks m] (stoks .jsonModelHeader) ++ readToks m ++ writeToks ctx m ++
    functionToks .emptyEmpty .emptyHeader .emptyItem .emptyFooter m ++
    functionToks .clearEmpty .clearHeader .clearItem .clearFooter m ++
    functionToks .equalEmpty .equalHeader .equalItem .equalFooter m ++
    functionToks .swapEmpty .swapHeader .swapItem .swapFooter m ++
    indexToks ctx m ++ inst [[]] (stoks .jsonModelFooter)

/-- The names of a message are identifiers, and its JSON names stay within literals. -/
structure Lexed (ctx : Ctx) (m : Message) : Prop where
  name : CIdent m.name
  path : ∀ n ∈ namespaces m.package, CIdent n
  field : ∀ f ∈ m.fields, CIdent f.name
  label : ∀ f ∈ m.fields, Persistent f = true → Within ctx (jsonNameIn ctx f)

theorem fits0 : FitsAll [] [] [] := .nil
theorem fits1 {k : Hole} {a : Bytes} {x : List Tok} (h : k.Fits a x) : FitsAll [k] [a] [x] := .cons h .nil
theorem fits2 {k l : Hole} {a b : Bytes} {x y : List Tok} (h : k.Fits a x) (i : l.Fits b y) : FitsAll [k, l] [a, b] [x, y] := .cons h (fits1 i)

theorem known_fits (b : Bytes) : Hole.Fits (.known b) b [] := ⟨rfl, rfl⟩

theorem Toks.function (rt : Runtime) {ctx : Ctx} {m : Message} (h : Lexed ctx m) {empty head item foot : Tpl}
    (h1 : empty ∈ functionTpls ∧ kindsOf empty = [.type]) (h2 : head ∈ functionTpls ∧ kindsOf head = [.type])
    (h3 : item ∈ functionTpls ∧ kindsOf item = [.word]) (h4 : foot ∈ functionTpls ∧ kindsOf foot = []) :
    Toks rt (functionCalls empty head item foot m) (functionToks empty head item foot m) := by
  have ht := type_fits h.name h.path
  unfold functionCalls functionToks
  split
  · exact .call rt h1.1 (h1.2 ▸ fits1 ht)
  · refine .append (.append (a := [_]) (.call rt h2.1 (h2.2 ▸ fits1 ht)) (.map fun f hf => ?_)) (.call rt h4.1 (h4.2 ▸ fits0))
    exact .call rt h3.1 (h3.2 ▸ fits1 (word_fits (cident_words (h.field f hf))))

theorem mem_zipIdx_fst {α : Type} {l : List α} {x : α × Nat} {i : Nat} (h : x ∈ l.zipIdx i) : x.1 ∈ l := by
  have := List.mem_map_of_mem (f := Prod.fst) h
  rwa [List.zipIdx_map_fst] at this

/-- The tokens of the functions of a message. -/
theorem Toks.wrapper (rt : Runtime) {ctx : Ctx} {m : Message} (h : Lexed ctx m) : Toks rt (wrapperCalls ctx m) (wrapperToks ctx m) := by
  have ht := type_fits h.name h.path
  have hf : ∀ f ∈ m.fields.filter Persistent, f ∈ m.fields ∧ Persistent f = true := fun f hf => List.mem_filter.mp hf
  unfold wrapperCalls wrapperToks
  simp only
  refine .append (.append (.append (.append (.append (.append (.append (.append ?_ ?_) ?_) ?_) ?_) ?_) ?_) ?_) ?_
  · exact .call rt (by decide) (fits2 (known_fits _) ht)
  · unfold readToks
    simp only
    split
    · exact .call rt (by decide) (fits1 ht)
    · refine .append (.append (.call rt (by decide) (fits1 ht)) (.map fun x hx => ?_)) (.call rt (by decide) fits0)
      exact .call rt (by decide) (fits2 (word_fits (decNat_words _)) (word_fits (cident_words (h.field _ (hf _ (mem_zipIdx_fst hx)).1))))
  · unfold writeToks
    simp only
    split
    · exact .call rt (by decide) (fits1 ht)
    · refine .append (.append (.call rt (by decide) (fits2 ht (known_fits _))) (.map fun x hx => ?_)) (.call rt (by decide) fits0)
      exact .call rt (by decide) (fits2 (word_fits (cident_words (h.field _ (hf _ hx).1))) (label_fits (h.label _ (hf _ hx).1 (hf _ hx).2)))
  · exact Toks.function rt h ⟨by decide, rfl⟩ ⟨by decide, rfl⟩ ⟨by decide, rfl⟩ ⟨by decide, rfl⟩
  · exact Toks.function rt h ⟨by decide, rfl⟩ ⟨by decide, rfl⟩ ⟨by decide, rfl⟩ ⟨by decide, rfl⟩
  · exact Toks.function rt h ⟨by decide, rfl⟩ ⟨by decide, rfl⟩ ⟨by decide, rfl⟩ ⟨by decide, rfl⟩
  · exact Toks.function rt h ⟨by decide, rfl⟩ ⟨by decide, rfl⟩ ⟨by decide, rfl⟩ ⟨by decide, rfl⟩
  · unfold indexToks
    simp only
    split
    · exact .call rt (by decide) fits0
    · refine .append (.append (.call rt ?_ ?_) (.map fun x hx => ?_)) (.call rt (by decide) fits0)
      · cases ctx.obfuscate <;> decide
      · cases ctx.obfuscate <;> exact fits0
      · obtain ⟨h1, h2⟩ := hf _ (mem_zipIdx_fst hx)
        exact .call rt (by decide) (fits2 (key_fits (h.label _ h1 h2)) (word_fits (decNat_words _)))
  · exact .call rt (by decide) (fits1 (known_fits _))

end PG.Cpp
