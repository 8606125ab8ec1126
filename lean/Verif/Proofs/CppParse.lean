import Verif.Proofs.CppTokens
import Verif.Spec.CppClass
/-
The functions of a message as they are read from its tokens.
-/
set_option autoImplicit false
namespace PG.Cpp
open PG.Gen PG.Proto

/-! ### The syntax trees -/

/-- `v.n`. -/
def fieldOf (v n : Bytes) : Expr := .member (.name v) n
/-- `json<decltype(e)>::f(args)`. -/
def jsonCall (e : Expr) (f : Bytes) (args : List Expr) : Expr := .call (.statik e f) args

/-- `a && b && … && true`. -/
def conjunction : Expr → List Expr → Expr
  | a, [] => .binary b!"&&" a (.name b!"true")
  | a, b :: l => conjunction (.binary b!"&&" a b) l

/-- A parameter `json_context &ctx`. -/
def ctxParam : List Tok × Bytes := ([.word b!"json_context", .op b!"&"], b!"ctx")
/-- A parameter `const std::string &name`. -/
def nameParam : List Tok × Bytes := ([.word b!"const", .word b!"std", .op b!"::", .word b!"string", .op b!"&"], b!"name")
/-- A parameter `T &v`. -/
def refParam (ty : List Tok) (v : Bytes) : List Tok × Bytes := (ty ++ [.op b!"&"], v)
/-- A parameter `const T &v`. -/
def constParam (ty : List Tok) (v : Bytes) : List Tok × Bytes := (.word b!"const" :: (ty ++ [.op b!"&"]), v)

/-- `(void) v;`. -/
def discarded (v : Bytes) : Stmt := .expr (.discard (.name v))

/-- `static int read`. -/
def readFun (m : Message) : Fun :=
  ⟨[.word b!"static", .word b!"int"], b!"read", [ctxParam, refParam (typeToks m) b!"value"],
   [.ret (some (.call (.name b!"read_object") [.name b!"ctx", .name b!"value"]))]⟩

/-- A case of `read_field`. -/
def readCase (x : Field × Nat) : Expr × List Stmt :=
  (.num x.2, [.ret (some (jsonCall (fieldOf b!"value" x.1.name) b!"read" [.name b!"ctx", fieldOf b!"value" x.1.name]))])

/-- `static int read_field`. -/
def readFieldFun (m : Message) : Fun :=
  let fs := m.fields.filter Persistent
  ⟨[.word b!"static", .word b!"int"], b!"read_field", [ctxParam, nameParam, refParam (typeToks m) b!"value"],
   if fs = [] then [discarded b!"ctx", discarded b!"name", discarded b!"value", .ret (some (.name b!"PGR_NIL"))]
   else
    [.decl [.word b!"int"] b!"idx" (some (.call (.name b!"index") [.name b!"name"])),
     .ite (.binary b!"<" (.name b!"idx") (.num 0)) (.ret (some (.name b!"PGR_NIL"))) none,
     .switch (.name b!"idx") (fs.zipIdx.map readCase) [.ret (some (.name b!"PGR_NIL"))]]⟩

/-- `(*ctx.os)`. -/
def stream : Expr := .unary b!"*" (.member (.name b!"ctx") b!"os")

/-- The label of a field. -/
def labelExpr (ctx : Ctx) (name : Bytes) : Expr :=
  if ctx.obfuscate then .call (.name b!"reveal") [.str (keyText ctx name)] else .str (keyText ctx name)

/-- The output of a field. -/
def writeStmt (ctx : Ctx) (f : Field) : Stmt :=
  .ite (.binary b!"||" (.member (.member (.name b!"ctx") b!"params") b!"serialize_null")
      (.unary b!"!" (jsonCall (fieldOf b!"value" f.name) b!"empty" [fieldOf b!"value" f.name])))
    (.block
      [.expr (.binary b!"<<" (.binary b!"<<" (.binary b!"<<" stream (.cond (.name b!"f") (.str b!"\\\"") (.str b!",\\\"")))
        (labelExpr ctx (jsonNameIn ctx f))) (.str b!"\\\":")),
       .expr (jsonCall (fieldOf b!"value" f.name) b!"write" [.name b!"ctx", fieldOf b!"value" f.name]),
       .expr (.assign (.name b!"f") (.name b!"false"))]) none

/-- `static int write`. -/
def writeFun (ctx : Ctx) (m : Message) : Fun :=
  let fs := m.fields.filter Persistent
  ⟨[.word b!"static", .word b!"int"], b!"write", [ctxParam, constParam (typeToks m) b!"value"],
   if fs = [] then [discarded b!"value", .expr (.binary b!"<<" stream (.str b!"{}")), .ret (some (.name b!"PGR_OK"))]
   else
    [.decl [.word b!"bool"] b!"f" (some (.name b!"true")), .expr (.binary b!"<<" stream (.chr b!"{"))] ++
    fs.map (writeStmt ctx) ++ [.expr (.binary b!"<<" stream (.chr b!"}")), .ret (some (.name b!"PGR_OK"))]⟩

/-- What `empty` asks about a field. -/
def emptyExpr (f : Field) : Expr := jsonCall (fieldOf b!"value" f.name) b!"empty" [fieldOf b!"value" f.name]

/-- `static bool empty`. -/
def emptyFun (m : Message) : Fun :=
  ⟨[.word b!"static", .word b!"bool"], b!"empty", [constParam (typeToks m) b!"value"],
   match m.fields with
   | [] => [discarded b!"value", .ret (some (.name b!"true"))]
   | f :: fs => [.ret (some (conjunction (emptyExpr f) (fs.map emptyExpr)))]⟩

/-- What `clear` does to a field. -/
def clearStmt (f : Field) : Stmt := .expr (jsonCall (fieldOf b!"value" f.name) b!"clear" [fieldOf b!"value" f.name])

/-- `static void clear`. -/
def clearFun (m : Message) : Fun :=
  ⟨[.word b!"static", .word b!"void"], b!"clear", [refParam (typeToks m) b!"value"],
   if m.fields = [] then [discarded b!"value"] else m.fields.map clearStmt⟩

/-- What `equal` asks about a field. -/
def equalExpr (f : Field) : Expr := jsonCall (fieldOf b!"a" f.name) b!"equal" [fieldOf b!"a" f.name, fieldOf b!"b" f.name]

/-- `static bool equal`. -/
def equalFun (m : Message) : Fun :=
  ⟨[.word b!"static", .word b!"bool"], b!"equal", [constParam (typeToks m) b!"a", constParam (typeToks m) b!"b"],
   match m.fields with
   | [] => [discarded b!"a", discarded b!"b", .ret (some (.name b!"true"))]
   | f :: fs => [.ret (some (conjunction (equalExpr f) (fs.map equalExpr)))]⟩

/-- What `swap` does to a field. -/
def swapStmt (f : Field) : Stmt :=
  .expr (jsonCall (fieldOf b!"a" f.name) b!"swap" [fieldOf b!"a" f.name, fieldOf b!"b" f.name])

/-- `static void swap`. -/
def swapFun (m : Message) : Fun :=
  ⟨[.word b!"static", .word b!"void"], b!"swap", [refParam (typeToks m) b!"a", refParam (typeToks m) b!"b"],
   if m.fields = [] then [discarded b!"a", discarded b!"b"] else m.fields.map swapStmt⟩

/-- An entry of the table. -/
def entryExpr (ctx : Ctx) (x : Field × Nat) : Expr := .braces [.str (keyText ctx (jsonNameIn ctx x.1)), .num x.2]

/-- `static int index`. -/
def indexFun (ctx : Ctx) (m : Message) : Fun :=
  let fs := m.fields.filter Persistent
  ⟨[.word b!"static", .word b!"int"], b!"index", [nameParam],
   if fs = [] then [discarded b!"name", .ret (some (.unary b!"-" (.num 1)))]
   else
    [if ctx.obfuscate then
        .decl [.word b!"std", .op b!"::", .word b!"string"] b!"temp" (some (.call (.name b!"reveal") [.name b!"name"]))
     else .decl [.word b!"const", .word b!"std", .op b!"::", .word b!"string", .op b!"&"] b!"temp" (some (.name b!"name")),
     .decl tableType b!"FIELDS" (some (.braces (fs.zipIdx.map (entryExpr ctx)))),
     .decl [.word b!"auto"] b!"it" (some (.call (.member (.name b!"FIELDS") b!"find") [.name b!"temp"])),
     .ret (some (.cond (.binary b!"==" (.name b!"it") (.call (.member (.name b!"FIELDS") b!"end") []))
       (.unary b!"-" (.num 1)) (.arrow (.name b!"it") b!"second")))]⟩

/-- The class of a message. -/
def classOf (ctx : Ctx) (m : Message) : Class :=
  ⟨b!"protogen_3_0_0", typeToks m,
   [readFun m, readFieldFun m, writeFun ctx m, emptyFun m, clearFun m, equalFun m, swapFun m, indexFun ctx m]⟩

/-! ### Parameters -/

/-- The tokens of types. -/
def Typish (ty : List Tok) : Prop := ∀ t ∈ ty, t ≠ .op b!")" ∧ t ≠ .op b!"," ∧ t ≠ .op b!">"

theorem typeToks_typish (m : Message) : Typish (typeToks m) := by
  intro t ht
  unfold typeToks pathToks at ht
  obtain ⟨n, _, ht⟩ := List.mem_flatMap.mp ht
  simp only [List.mem_cons, List.not_mem_nil, or_false] at ht
  rcases ht with rfl | rfl
  · decide
  · exact ⟨nofun, nofun, nofun⟩

theorem parameters_skip {ty : List Tok} (h : Typish ty) (acc rest : List Tok) :
    parameters acc (ty ++ rest) = parameters (acc ++ ty) rest := by
  induction ty generalizing acc with
  | nil => simp
  | cons t ty ih =>
    have ht := h t (by simp)
    rw [List.cons_append, parameters, if_neg ht.1, if_neg ht.2.1, ih (fun x hx => h x (List.mem_cons_of_mem _ hx))]
    simp

theorem parameter_last (ts : List Tok) (w : Bytes) : parameter (ts ++ [.word w]) = some (ts, w) := by
  unfold parameter
  simp

/-- The last parameter. -/
theorem parameters_end {acc ty : List Tok} (h : Typish ty) (v : Bytes) (r : List Tok) :
    parameters acc (ty ++ (.op b!"&" :: .word v :: .op b!")" :: r)) = some ([(acc ++ (ty ++ [.op b!"&"]), v)], r) := by
  rw [parameters_skip h, parameters, if_neg (by decide), if_neg (by decide), parameters, if_neg nofun, if_neg nofun, parameters,
    if_pos rfl, if_neg (by simp), parameter_last]
  simp

/-- Another parameter. -/
theorem parameters_more {acc ty : List Tok} (h : Typish ty) (v : Bytes) {r r' : List Tok} {ps : List (List Tok × Bytes)}
    (hr : parameters [] r = some (ps, r')) :
    parameters acc (ty ++ (.op b!"&" :: .word v :: .op b!"," :: r)) = some ((acc ++ (ty ++ [.op b!"&"]), v) :: ps, r') := by
  rw [parameters_skip h, parameters, if_neg (by decide), if_neg (by decide), parameters, if_neg nofun, if_neg nofun, parameters,
    if_neg (by decide), if_pos rfl, parameter_last, Option.bind_some, hr]
  simp

theorem argument_eq {ty : List Tok} (h : Typish ty) (r : List Tok) : argument (ty ++ .op b!">" :: r) = some (ty, r) := by
  induction ty with
  | nil => rfl
  | cons t ty ih =>
    rw [List.cons_append, argument, if_neg (h t (by simp)).2.2, ih (fun x hx => h x (List.mem_cons_of_mem _ hx))]
    rfl

/-- A function. -/
theorem function_eq {n : Nat} {ret name : Bytes} {ps : List (List Tok × Bytes)} {ptoks btoks rest : List Tok} {body : List Stmt}
    (hp : ∀ r, parameters [] (ptoks ++ r) = some (ps, r))
    (hb : statements (statement n n) n (btoks ++ .op b!"}" :: rest) = some (body, .op b!"}" :: rest)) :
    function n (.word b!"static" :: .word ret :: .word name :: .op b!"(" :: (ptoks ++ .op b!"{" :: (btoks ++ .op b!"}" :: rest))) =
      some (⟨[.word b!"static", .word ret], name, ps, body⟩, rest) := by
  have hs : ∀ r, signature [] (.word b!"static" :: .word ret :: .word name :: .op b!"(" :: r) =
      some ([.word b!"static", .word ret], name, r) := fun r => rfl
  rw [function, hs, Option.bind_some]
  simp only
  rw [hp, Option.bind_some]
  show Option.bind (some _) _ = _
  rw [Option.bind_some, hb]
  rfl

/-! ### Numbers -/

theorem number_digits (l : Bytes) (n : Nat) :
    l.foldl (fun n c => 10 * n + (c.toNat - 48)) n = digitsVal n l := by
  unfold digitsVal
  simp only [Nat.mul_comm]

theorem number_eq (n : Nat) : Cpp.number (decNat n) = some n := by
  have hd := decNat_digits' n
  unfold Cpp.number
  rw [if_pos, number_digits, decNat_val]
  refine ⟨decNat_ne_nil n, ?_⟩
  rw [List.all_eq_true]
  intro c hc
  simpa using hd c hc

theorem decNat_not_json (n : Nat) : decNat n ≠ b!"json" := by
  intro e
  have := decNat_digits' n c!"j" (by rw [e]; simp)
  revert this
  decide

/-- A number before a colon or a brace. -/
theorem expression_number (k n : Nat) {o : Bytes} (ho : o = b!":" ∨ o = b!"}") (r : List Tok) :
    expression (k + 2) (.word (decNat n) :: .op o :: r) = some (.num n, .op o :: r) := by
  have hp : primary (expression (k + 1)) (.word (decNat n) :: .op o :: r) = some (.num n, .op o :: r) := by
    rw [primary.eq_def]
    simp only
    rw [if_neg (decNat_not_json n), number_eq]
  have hu : unaries (k + 1) (expression (k + 1)) (k + 1) (.word (decNat n) :: .op o :: r) = some (.num n, .op o :: r) := by
    rw [unaries.eq_def]
    simp only [hp, Option.bind_some]
    rcases ho with rfl | rfl <;> rfl
  show unbraced (k + 1) (expression (k + 1)) _ = _
  rw [unbraced]
  have hb : binaries (k + 1) (unaries (k + 1) (expression (k + 1)) (k + 1)) 10 (.word (decNat n) :: .op o :: r) =
      some (.num n, .op o :: r) := by
    simp only [binaries, hu, Option.bind_some]
    rcases ho with rfl | rfl <;> rfl
  rw [hb]
  rcases ho with rfl | rfl <;> rfl

/-! ### Statements -/

/-- What a statement may begin with. -/
def Begin (ts : List Tok) : Prop :=
  ts.head? ≠ some (.op b!"}") ∧ ts.head? ≠ some (.word b!"case") ∧ ts.head? ≠ some (.word b!"default")

/-- Statements one after the other. -/
theorem statements_map {α : Type} {stmt : Reader Stmt} {tok : α → List Tok} {st : α → Stmt} {l : List α} {rest rest' : List Tok}
    {ss : List Stmt} {c : Nat}
    (hs : ∀ x ∈ l, ∀ r, r.head? ≠ some (.word b!"else") → stmt (tok x ++ r) = some (st x, r))
    (hh : ∀ x ∈ l, ∀ r, Begin (tok x ++ r) ∧ (tok x ++ r).head? ≠ some (.word b!"else"))
    (he : rest.head? ≠ some (.word b!"else"))
    (hr : ∀ j, c ≤ j → statements stmt j rest = some (ss, rest')) {j : Nat} (hj : l.length + c ≤ j) :
    statements stmt j (l.flatMap tok ++ rest) = some (l.map st ++ ss, rest') := by
  induction l generalizing j with
  | nil => exact hr j (by simpa using hj)
  | cons x l ih =>
    rw [List.length_cons] at hj
    obtain ⟨j, rfl⟩ : ∃ i, j = i + 1 := ⟨j - 1, by omega⟩
    obtain ⟨⟨h1, h2, h3⟩, -⟩ := hh x (by simp) (l.flatMap tok ++ rest)
    have h4 : (l.flatMap tok ++ rest).head? ≠ some (.word b!"else") := by
      cases l with
      | nil => exact he
      | cons y l =>
        rw [List.flatMap_cons, List.append_assoc]
        exact (hh y (by simp) _).2
    rw [List.flatMap_cons, List.append_assoc, statements, if_neg, hs x (by simp) _ h4, Option.bind_some]
    · simp only
      rw [ih (fun y hy => hs y (List.mem_cons_of_mem _ hy)) (fun y hy => hh y (List.mem_cons_of_mem _ hy)) (by omega)]
      rfl
    · rintro (h | h | h)
      · exact h1 h
      · exact h2 h
      · exact h3 h

/-- One more. -/
theorem statements_cons {stmt : Reader Stmt} {ts us rest : List Tok} {s : Stmt} {ss : List Stmt} {j : Nat} (hs : stmt ts = some (s, us))
    (hh : Begin ts) (hr : statements stmt j us = some (ss, rest)) : statements stmt (j + 1) ts = some (s :: ss, rest) := by
  rw [statements, if_neg (by rintro (h | h | h); exact hh.1 h; exact hh.2.1 h; exact hh.2.2 h), hs, Option.bind_some]
  simp only
  rw [hr]
  rfl

theorem statements_end {stmt : Reader Stmt} {j : Nat} {r : List Tok} : statements stmt (j + 1) (.op b!"}" :: r) = some ([], .op b!"}" :: r) := rfl

/-! #### `clear` and `swap` -/

theorem clear_statement (n k : Nat) (f : Bytes) (r : List Tok) :
    statement (n + 12) (k + 1) (inst [[.word f]] (stoks .clearItem) ++ r) =
      some (.expr (jsonCall (fieldOf b!"value" f) b!"clear" [fieldOf b!"value" f]), r) := by rfl

theorem swap_statement (n k : Nat) (f : Bytes) (r : List Tok) :
    statement (n + 12) (k + 1) (inst [[.word f]] (stoks .swapItem) ++ r) =
      some (.expr (jsonCall (fieldOf b!"a" f) b!"swap" [fieldOf b!"a" f, fieldOf b!"b" f]), r) := by rfl

theorem write_statement (n k : Nat) (ctx : Ctx) (f : Field) {r : List Tok} (hr : r.head? ≠ some (.word b!"else")) :
    statement (n + 20) (k + 5) (inst [[.word f.name], labelToks ctx (jsonNameIn ctx f)] (stoks .writeItem) ++ r) =
      some (writeStmt ctx f, r) := by
  unfold labelToks writeStmt labelExpr
  cases ctx.obfuscate
  · cases r with
    | nil => rfl
    | cons t r =>
      cases t with
      | word e =>
        have he : e ≠ b!"else" := fun h => hr (by rw [h]; rfl)
        show (if e = b!"else" then _ else _) = _
        rw [if_neg he]
        rfl
      | _ => rfl
  · cases r with
    | nil => rfl
    | cons t r =>
      cases t with
      | word e =>
        have he : e ≠ b!"else" := fun h => hr (by rw [h]; rfl)
        show (if e = b!"else" then _ else _) = _
        rw [if_neg he]
        rfl
      | _ => rfl

/-! #### `read_field` -/

theorem statements_label {stmt : Reader Stmt} {j : Nat} {r : List Tok}
    (h : r.head? = some (.word b!"case") ∨ r.head? = some (.word b!"default")) : statements stmt (j + 1) r = some ([], r) := by
  rw [statements, if_pos (Or.inr h)]

/-- The tokens of a case. -/
def caseToks (x : Field × Nat) : List Tok := inst [[.word (decNat x.2)], [.word x.1.name]] (stoks .readFieldItem)

/-- The tokens of a case after the colon. -/
def returnToks (f : Bytes) (r : List Tok) : List Tok :=
  .word b!"return" :: .word b!"json" :: .op b!"<" :: .word b!"decltype" :: .op b!"(" ::
  .word b!"value" :: .op b!"." :: .word f :: .op b!")" :: .op b!">" :: .op b!"::" :: .word b!"read" :: .op b!"(" ::
  .word b!"ctx" :: .op b!"," :: .word b!"value" :: .op b!"." :: .word f :: .op b!")" :: .op b!";" :: r

theorem case_labels (n k j : Nat) (x : Field × Nat) {r r' : List Tok} {q : List (Expr × List Stmt) × List Stmt}
    (h : r.head? = some (.word b!"case") ∨ r.head? = some (.word b!"default"))
    (hr : labels (n + 20) (statement (n + 20) (k + 1)) j r = some (q, r')) :
    labels (n + 20) (statement (n + 20) (k + 1)) (j + 1) (caseToks x ++ r) = some ((readCase x :: q.1, q.2), r') := by
  have hs : statement (n + 20) (k + 1) (returnToks x.1.name r) =
      some (.ret (some (jsonCall (fieldOf b!"value" x.1.name) b!"read" [.name b!"ctx", fieldOf b!"value" x.1.name])), r) := rfl
  have h2 : statements (statement (n + 20) (k + 1)) (n + 20) (returnToks x.1.name r) = some ([_], r) :=
    statements_cons (j := n + 19) hs ⟨by simp [returnToks], by simp [returnToks], by simp [returnToks]⟩ (statements_label h)
  show Option.bind (expression (n + 20) (.word (decNat x.2) :: .op b!":" :: returnToks x.1.name r)) _ = _
  rw [expression_number _ _ (.inl rfl), Option.bind_some]
  show Option.bind (some (returnToks x.1.name r)) _ = _
  rw [Option.bind_some, h2, Option.bind_some]
  simp only
  rw [hr]
  rfl

theorem all_labels (n k : Nat) (l : List (Field × Nat)) {j : Nat} (hj : l.length + 2 ≤ j) (r : List Tok) :
    labels (n + 20) (statement (n + 20) (k + 1)) j
        (l.flatMap caseToks ++ (.word b!"default" :: .op b!":" :: .word b!"return" :: .word b!"PGR_NIL" :: .op b!";" :: .op b!"}" :: r)) =
      some ((l.map readCase, [.ret (some (.name b!"PGR_NIL"))]), r) := by
  induction l generalizing j with
  | nil =>
    obtain ⟨j, rfl⟩ : ∃ i, j = i + 1 := ⟨j - 1, by simp at hj; omega⟩
    rfl
  | cons x l ih =>
    rw [List.length_cons] at hj
    obtain ⟨j, rfl⟩ : ∃ i, j = i + 1 := ⟨j - 1, by omega⟩
    rw [List.flatMap_cons, List.append_assoc, case_labels n k j x ?_ (ih (by omega))]
    · rfl
    · cases l with
      | nil => exact .inr rfl
      | cons y l => exact .inl rfl

/-! #### `empty` and `equal` -/

theorem chain_conjunction {α : Type} {operand : Reader Expr} {tok : α → List Tok} {e : α → Expr} {l : List α} (a : Expr) (r : List Tok)
    (h : ∀ x ∈ l, ∀ r, operand (tok x ++ .op b!"&&" :: r) = some (e x, .op b!"&&" :: r))
    (ht : ∀ r, operand (.word b!"true" :: .op b!";" :: r) = some (.name b!"true", .op b!";" :: r)) {j : Nat} (hj : l.length + 2 ≤ j) :
    chain operand (level 1) j a (.op b!"&&" :: (l.flatMap (fun x => tok x ++ [.op b!"&&"]) ++ (.word b!"true" :: .op b!";" :: r))) =
      some (conjunction a (l.map e), .op b!";" :: r) := by
  induction l generalizing j a with
  | nil =>
    obtain ⟨j, rfl⟩ : ∃ i, j = i + 2 := ⟨j - 2, by simp at hj; omega⟩
    rw [chain, if_pos (by decide), List.flatMap_nil, List.nil_append, ht, Option.bind_some]
    rfl
  | cons x l ih =>
    rw [List.length_cons] at hj
    obtain ⟨j, rfl⟩ : ∃ i, j = i + 1 := ⟨j - 1, by omega⟩
    rw [chain, if_pos (by decide), List.flatMap_cons, List.append_assoc, List.append_assoc, List.cons_append, List.nil_append, h x (by simp),
      Option.bind_some]
    simp only
    rw [ih _ (fun y hy => h y (List.mem_cons_of_mem _ hy)) (by omega)]
    rfl

theorem expression_conjunction {α : Type} {n : Nat} {tok : α → List Tok} {e : α → Expr} (x : α) (l : List α) (r : List Tok)
    (h : ∀ x r, binaries (n + 12) (unaries (n + 12) (expression (n + 12)) (n + 12)) 8 (tok x ++ .op b!"&&" :: r) = some (e x, .op b!"&&" :: r))
    (hu : ∀ r, expression (n + 13) (tok x ++ r) = unbraced (n + 12) (expression (n + 12)) (tok x ++ r)) (hj : l.length + 2 ≤ n + 12) :
    expression (n + 13) (tok x ++ .op b!"&&" :: (l.flatMap (fun x => tok x ++ [.op b!"&&"]) ++ (.word b!"true" :: .op b!";" :: r))) =
      some (conjunction (e x) (l.map e), .op b!";" :: r) := by
  have h9 : binaries (n + 12) (unaries (n + 12) (expression (n + 12)) (n + 12)) 9
      (tok x ++ .op b!"&&" :: (l.flatMap (fun x => tok x ++ [.op b!"&&"]) ++ (.word b!"true" :: .op b!";" :: r))) =
      some (conjunction (e x) (l.map e), .op b!";" :: r) := by
    rw [binaries, h x, Option.bind_some]
    exact chain_conjunction (e x) r (fun x _ => h x) (fun r => rfl) hj
  rw [hu, unbraced, binaries, h9, Option.bind_some]
  rfl

/-- The tokens of a call of `empty`, without what follows. -/
def emptyToks (f : Field) : List Tok := (inst [[.word f.name]] (stoks .emptyItem)).dropLast
/-- The tokens of a call of `equal`, without what follows. -/
def equalToks (f : Field) : List Tok := (inst [[.word f.name]] (stoks .equalItem)).dropLast

/-! #### `index` -/

/-- The tokens of an entry. -/
def entryToks (ctx : Ctx) (x : Field × Nat) : List Tok :=
  inst [[.str (keyText ctx (jsonNameIn ctx x.1))], [.word (decNat x.2)]] (stoks .indexItem)

theorem entry_expression (n : Nat) (ctx : Ctx) (x : Field × Nat) (r : List Tok) :
    expression (n + 5) (entryToks ctx x ++ r) = some (entryExpr ctx x, .op b!"," :: r) := by
  show Option.map _ (items (expression (n + 4)) b!"}" true (n + 4) (.str _ :: .op b!"," :: .word (decNat x.2) :: .op b!"}" :: .op b!"," :: r)) = _
  rw [items]
  have h1 : ∀ k r, expression (n + 4) (.str k :: .op b!"," :: r) = some (.str k, .op b!"," :: r) := fun k r => rfl
  rw [h1, Option.bind_some]
  simp only
  rw [if_neg (by decide), if_pos trivial, items, expression_number (n + 2) x.2 (.inr rfl), Option.bind_some]
  simp only
  rw [if_pos trivial]
  rfl

theorem entries (n : Nat) (ctx : Ctx) (x : Field × Nat) (l : List (Field × Nat)) {j : Nat} (hj : l.length + 1 ≤ j) (r : List Tok) :
    items (expression (n + 5)) b!"}" true j (entryToks ctx x ++ (l.flatMap (entryToks ctx) ++ .op b!"}" :: r)) =
      some ((x :: l).map (entryExpr ctx), r) := by
  induction l generalizing x j with
  | nil =>
    obtain ⟨j, rfl⟩ : ∃ i, j = i + 1 := ⟨j - 1, by simp at hj; omega⟩
    rw [items, entry_expression, Option.bind_some]
    rfl
  | cons y l ih =>
    rw [List.length_cons] at hj
    obtain ⟨j, rfl⟩ : ∃ i, j = i + 1 := ⟨j - 1, by omega⟩
    rw [items, entry_expression, Option.bind_some]
    simp only
    rw [if_neg (by decide), if_pos trivial, List.flatMap_cons, List.append_assoc]
    show Option.map _ (items (expression (n + 5)) b!"}" true j (entryToks ctx y ++ (l.flatMap (entryToks ctx) ++ .op b!"}" :: r))) = _
    rw [ih y (by omega)]
    rfl

/-! ### The functions -/

/-- The parameters of `read`. -/
def readParams (ty : List Tok) : List Tok :=
  .word b!"json_context" :: .op b!"&" :: .word b!"ctx" :: .op b!"," :: (ty ++ [.op b!"&", .word b!"value", .op b!")"])
/-- The parameters of `read_field`. -/
def readFieldParams (ty : List Tok) : List Tok :=
  .word b!"json_context" :: .op b!"&" :: .word b!"ctx" :: .op b!"," :: .word b!"const" :: .word b!"std" :: .op b!"::" ::
  .word b!"string" :: .op b!"&" :: .word b!"name" :: .op b!"," :: (ty ++ [.op b!"&", .word b!"value", .op b!")"])
/-- The parameters of `write`. -/
def writeParams (ty : List Tok) : List Tok :=
  .word b!"json_context" :: .op b!"&" :: .word b!"ctx" :: .op b!"," :: .word b!"const" :: (ty ++ [.op b!"&", .word b!"value", .op b!")"])
/-- The parameters of `empty`. -/
def emptyParams (ty : List Tok) : List Tok := .word b!"const" :: (ty ++ [.op b!"&", .word b!"value", .op b!")"])
/-- The parameters of `clear`. -/
def clearParams (ty : List Tok) : List Tok := ty ++ [.op b!"&", .word b!"value", .op b!")"]
/-- The parameters of `equal`. -/
def equalParams (ty : List Tok) : List Tok :=
  .word b!"const" :: (ty ++ (.op b!"&" :: .word b!"a" :: .op b!"," :: .word b!"const" :: (ty ++ [.op b!"&", .word b!"b", .op b!")"])))
/-- The parameters of `swap`. -/
def swapParams (ty : List Tok) : List Tok :=
  ty ++ (.op b!"&" :: .word b!"a" :: .op b!"," :: (ty ++ [.op b!"&", .word b!"b", .op b!")"]))

theorem Typish.const {ty : List Tok} (h : Typish ty) : Typish (.word b!"const" :: ty) := by
  intro t ht
  rcases List.mem_cons.mp ht with rfl | ht
  · decide
  · exact h t ht

theorem typish_context : Typish [.word b!"json_context"] := by unfold Typish; decide
theorem typish_string : Typish [.word b!"const", .word b!"std", .op b!"::", .word b!"string"] := by unfold Typish; decide

theorem readParams_eq {ty : List Tok} (h : Typish ty) (r : List Tok) :
    parameters [] (readParams ty ++ r) = some ([ctxParam, refParam ty b!"value"], r) := by
  simp only [readParams, List.cons_append, List.append_assoc, List.nil_append]
  exact parameters_more typish_context b!"ctx" (parameters_end h b!"value" r)

theorem readFieldParams_eq {ty : List Tok} (h : Typish ty) (r : List Tok) :
    parameters [] (readFieldParams ty ++ r) = some ([ctxParam, nameParam, refParam ty b!"value"], r) := by
  simp only [readFieldParams, List.cons_append, List.append_assoc, List.nil_append]
  exact parameters_more typish_context b!"ctx" (parameters_more typish_string b!"name" (parameters_end h b!"value" r))

theorem writeParams_eq {ty : List Tok} (h : Typish ty) (r : List Tok) :
    parameters [] (writeParams ty ++ r) = some ([ctxParam, constParam ty b!"value"], r) := by
  simp only [writeParams, List.cons_append, List.append_assoc, List.nil_append]
  exact parameters_more typish_context b!"ctx" (parameters_end h.const b!"value" r)

theorem emptyParams_eq {ty : List Tok} (h : Typish ty) (r : List Tok) :
    parameters [] (emptyParams ty ++ r) = some ([constParam ty b!"value"], r) := by
  simp only [emptyParams, List.cons_append, List.append_assoc, List.nil_append]
  exact parameters_end h.const b!"value" r

theorem clearParams_eq {ty : List Tok} (h : Typish ty) (r : List Tok) :
    parameters [] (clearParams ty ++ r) = some ([refParam ty b!"value"], r) := by
  simp only [clearParams, List.cons_append, List.append_assoc, List.nil_append]
  exact parameters_end h b!"value" r

theorem equalParams_eq {ty : List Tok} (h : Typish ty) (r : List Tok) :
    parameters [] (equalParams ty ++ r) = some ([constParam ty b!"a", constParam ty b!"b"], r) := by
  simp only [equalParams, List.cons_append, List.append_assoc, List.nil_append]
  exact parameters_more h.const b!"a" (parameters_end h.const b!"b" r)

theorem swapParams_eq {ty : List Tok} (h : Typish ty) (r : List Tok) :
    parameters [] (swapParams ty ++ r) = some ([refParam ty b!"a", refParam ty b!"b"], r) := by
  simp only [swapParams, List.cons_append, List.append_assoc, List.nil_append]
  exact parameters_more h b!"a" (parameters_end h b!"b" r)

theorem indexParams_eq (r : List Tok) :
    parameters [] ([.word b!"const", .word b!"std", .op b!"::", .word b!"string", .op b!"&", .word b!"name", .op b!")"] ++ r) =
      some ([nameParam], r) := rfl

theorem inst_nil (hs : List (List Tok)) : inst hs [] = [] := rfl
theorem inst_tok_cons (hs : List (List Tok)) (t : Tok) (l : List STok) : inst hs (.tok t :: l) = t :: inst hs l := rfl
theorem inst_hole_cons (hs : List (List Tok)) (n : Nat) (l : List STok) : inst hs (.hole n :: l) = hs[n]?.getD [] ++ inst hs l := rfl

/-- A function, given its tokens in one list. -/
theorem function_eq' {n : Nat} {ts : List Tok} {ret name : Bytes} {ps : List (List Tok × Bytes)} {ptoks btoks rest : List Tok} {body : List Stmt}
    (e : ts = .word b!"static" :: .word ret :: .word name :: .op b!"(" :: (ptoks ++ .op b!"{" :: (btoks ++ .op b!"}" :: rest)))
    (hp : ∀ r, parameters [] (ptoks ++ r) = some (ps, r))
    (hb : statements (statement n n) n (btoks ++ .op b!"}" :: rest) = some (body, .op b!"}" :: rest)) :
    function n ts = some (⟨[.word b!"static", .word ret], name, ps, body⟩, rest) := e ▸ function_eq hp hb

theorem read_function (k : Nat) (m : Message) (r : List Tok) :
    function (k + 40) (.word b!"static" :: .word b!"int" :: .word b!"read" :: .op b!"(" :: (readParams (typeToks m) ++ .op b!"{" ::
      ([.word b!"return", .word b!"read_object", .op b!"(", .word b!"ctx", .op b!",", .word b!"value", .op b!")", .op b!";"] ++
        .op b!"}" :: r))) = some (readFun m, r) :=
  function_eq (readParams_eq (typeToks_typish m)) rfl

theorem readField_function {k : Nat} {m : Message} (hk : m.fields.length ≤ k) (r : List Tok) :
    function (k + 40) (readToks m ++ r) = some (readFieldFun m, r) := by
  unfold readToks readFieldFun
  simp only
  split
  · refine function_eq' (ptoks := readFieldParams (typeToks m)) (btoks := [.op b!"(", .word b!"void", .op b!")", .word b!"ctx", .op b!";",
      .op b!"(", .word b!"void", .op b!")", .word b!"name", .op b!";", .op b!"(", .word b!"void", .op b!")", .word b!"value", .op b!";",
      .word b!"return", .word b!"PGR_NIL", .op b!";"]) ?_ (readFieldParams_eq (typeToks_typish m)) rfl
    simp [stoks, inst_tok_cons, inst_hole_cons, inst_nil, readFieldParams]
  · have hl : ((m.fields.filter Persistent).zipIdx).length ≤ k := by
      rw [List.length_zipIdx]
      exact Nat.le_trans (List.length_filter_le _ _) hk
    generalize (m.fields.filter Persistent).zipIdx = l at hl ⊢
    refine function_eq' (ptoks := readFieldParams (typeToks m)) (btoks := .word b!"int" :: .word b!"idx" :: .op b!"=" ::
      .word b!"index" :: .op b!"(" :: .word b!"name" :: .op b!")" :: .op b!";" :: .word b!"if" :: .op b!"(" :: .word b!"idx" ::
      .op b!"<" :: .word b!"0" :: .op b!")" :: .word b!"return" :: .word b!"PGR_NIL" :: .op b!";" :: .word b!"switch" :: .op b!"(" ::
      .word b!"idx" :: .op b!")" :: .op b!"{" :: (l.flatMap caseToks ++ [.word b!"default", .op b!":", .word b!"return",
        .word b!"PGR_NIL", .op b!";", .op b!"}"])) ?_ (readFieldParams_eq (typeToks_typish m)) ?_
    · simp only [stoks, inst_tok_cons, inst_hole_cons, inst_nil, readFieldParams, List.cons_append, List.append_assoc, List.nil_append]
      rfl
    · simp only [List.cons_append, List.append_assoc, List.nil_append]
      refine statements_cons (j := k + 39) (us := .word b!"if" :: .op b!"(" :: .word b!"idx" ::
        .op b!"<" :: .word b!"0" :: .op b!")" :: .word b!"return" :: .word b!"PGR_NIL" :: .op b!";" :: .word b!"switch" :: .op b!"(" ::
        .word b!"idx" :: .op b!")" :: .op b!"{" :: (l.flatMap caseToks ++ .word b!"default" :: .op b!":" :: .word b!"return" ::
          .word b!"PGR_NIL" :: .op b!";" :: .op b!"}" :: .op b!"}" :: r)) rfl ⟨by simp, by simp, by simp⟩ ?_
      refine statements_cons (j := k + 38) (us := .word b!"switch" :: .op b!"(" ::
        .word b!"idx" :: .op b!")" :: .op b!"{" :: (l.flatMap caseToks ++ .word b!"default" :: .op b!":" :: .word b!"return" ::
          .word b!"PGR_NIL" :: .op b!";" :: .op b!"}" :: .op b!"}" :: r)) rfl ⟨by simp, by simp, by simp⟩ ?_
      refine statements_cons (j := k + 37) (us := .op b!"}" :: r) ?_ ⟨by simp, by simp, by simp⟩ rfl
      show Option.map _ (labels (k + 20 + 20) (statement (k + 20 + 20) (k + 38 + 1)) (k + 40) _) = _
      rw [all_labels (k + 20) (k + 38) l (by omega)]
      rfl

theorem write_function {k : Nat} {ctx : Ctx} {m : Message} (hk : m.fields.length ≤ k) (r : List Tok) :
    function (k + 40) (writeToks ctx m ++ r) = some (writeFun ctx m, r) := by
  unfold writeToks writeFun
  simp only
  split
  · refine function_eq' (ptoks := writeParams (typeToks m)) (btoks := [.op b!"(", .word b!"void", .op b!")", .word b!"value", .op b!";",
      .op b!"(", .op b!"*", .word b!"ctx", .op b!".", .word b!"os", .op b!")", .op b!"<<", .str b!"{}", .op b!";",
      .word b!"return", .word b!"PGR_OK", .op b!";"]) ?_ (writeParams_eq (typeToks_typish m)) rfl
    simp [stoks, inst_tok_cons, inst_hole_cons, inst_nil, writeParams]
  · have hl : (m.fields.filter Persistent).length ≤ k := Nat.le_trans (List.length_filter_le _ _) hk
    generalize m.fields.filter Persistent = l at hl ⊢
    refine function_eq' (ptoks := writeParams (typeToks m)) (btoks := .word b!"bool" :: .word b!"f" :: .op b!"=" :: .word b!"true" ::
      .op b!";" :: .op b!"(" :: .op b!"*" :: .word b!"ctx" :: .op b!"." :: .word b!"os" :: .op b!")" :: .op b!"<<" :: .chr b!"{" ::
      .op b!";" :: (l.flatMap (fun f => inst [[.word f.name], labelToks ctx (jsonNameIn ctx f)] (stoks .writeItem)) ++
      [.op b!"(", .op b!"*", .word b!"ctx", .op b!".", .word b!"os", .op b!")", .op b!"<<", .chr b!"}",
      .op b!";", .word b!"return", .word b!"PGR_OK", .op b!";"])) ?_ (writeParams_eq (typeToks_typish m)) ?_
    · simp only [stoks, inst_tok_cons, inst_hole_cons, inst_nil, writeParams, List.cons_append, List.append_assoc, List.nil_append]
      rfl
    · simp only [List.cons_append, List.append_assoc, List.nil_append]
      refine statements_cons (j := k + 39) (us := .op b!"(" :: .op b!"*" :: .word b!"ctx" :: .op b!"." :: .word b!"os" :: .op b!")" ::
        .op b!"<<" :: .chr b!"{" :: .op b!";" ::
        (l.flatMap (fun f => inst [[.word f.name], labelToks ctx (jsonNameIn ctx f)] (stoks .writeItem)) ++
        .op b!"(" :: .op b!"*" :: .word b!"ctx" :: .op b!"." :: .word b!"os" :: .op b!")" :: .op b!"<<" :: .chr b!"}" ::
        .op b!";" :: .word b!"return" :: .word b!"PGR_OK" :: .op b!";" :: .op b!"}" :: r)) rfl ⟨by simp, by simp, by simp⟩ ?_
      refine statements_cons (j := k + 38) (us :=
        (l.flatMap (fun f => inst [[.word f.name], labelToks ctx (jsonNameIn ctx f)] (stoks .writeItem)) ++
        .op b!"(" :: .op b!"*" :: .word b!"ctx" :: .op b!"." :: .word b!"os" :: .op b!")" :: .op b!"<<" :: .chr b!"}" ::
        .op b!";" :: .word b!"return" :: .word b!"PGR_OK" :: .op b!";" :: .op b!"}" :: r)) rfl ⟨by simp, by simp, by simp⟩ ?_
      refine statements_map (c := 3) (fun f _ r hr => write_statement (k + 20) (k + 35) ctx f hr) (fun f _ r => ?_) (by simp) (fun j hj => ?_) (by omega)
      · exact ⟨⟨by simp [stoks, inst_tok_cons], by simp [stoks, inst_tok_cons], by simp [stoks, inst_tok_cons]⟩, by simp [stoks, inst_tok_cons]⟩
      · obtain ⟨j, rfl⟩ : ∃ i, j = i + 3 := ⟨j - 3, by omega⟩
        rfl

theorem return_statement {n k : Nat} {us r : List Tok} {e : Expr} (h : expression n us = some (e, .op b!";" :: r)) (hs : eat b!";" us = none) :
    statement n (k + 1) (.word b!"return" :: us) = some (.ret (some e), r) := by
  rw [statement.eq_def]
  simp only [if_true]
  rw [hs, ended, h]
  rfl

theorem decl_statement {n k : Nat} {w v : Bytes} {us vs r : List Tok} {type : List Tok} {e : Expr}
    (hw : w ≠ b!"return" ∧ w ≠ b!"if" ∧ w ≠ b!"switch")
    (hd : declared 0 [] (.word w :: us) = some (type, v, .op b!"=" :: vs)) (h : expression n vs = some (e, .op b!";" :: r)) :
    statement n (k + 1) (.word w :: us) = some (.decl type v (some e), r) := by
  rw [statement.eq_def]
  simp only
  rw [if_neg hw.1, if_neg hw.2.1, if_neg hw.2.2, plain, hd]
  simp only
  have e1 : eat b!";" (.op b!"=" :: vs) = none := rfl
  have e2 : eat b!"=" (.op b!"=" :: vs) = some vs := rfl
  rw [e1, e2]
  simp only [Option.bind_some]
  rw [ended, h]
  rfl

theorem item_dropLast (f : Field) : inst [[.word f.name]] (stoks .emptyItem) = emptyToks f ++ [.op b!"&&"] ∧
    inst [[.word f.name]] (stoks .equalItem) = equalToks f ++ [.op b!"&&"] := ⟨rfl, rfl⟩

theorem empty_function {k : Nat} {m : Message} (hk : m.fields.length ≤ k) (r : List Tok) :
    function (k + 40) (functionToks .emptyEmpty .emptyHeader .emptyItem .emptyFooter m ++ r) = some (emptyFun m, r) := by
  unfold functionToks emptyFun
  cases e : m.fields with
  | nil =>
    refine function_eq' (ptoks := emptyParams (typeToks m)) (btoks := [.op b!"(", .word b!"void", .op b!")", .word b!"value", .op b!";",
      .word b!"return", .word b!"true", .op b!";"]) ?_ (emptyParams_eq (typeToks_typish m)) rfl
    simp [stoks, inst_tok_cons, inst_hole_cons, inst_nil, emptyParams]
  | cons f l =>
    rw [e] at hk
    simp only [reduceCtorEq, if_false, item_dropLast]
    refine function_eq' (ptoks := emptyParams (typeToks m)) (btoks := .word b!"return" :: (emptyToks f ++ .op b!"&&" ::
      (l.flatMap (fun x => emptyToks x ++ [.op b!"&&"]) ++ [.word b!"true", .op b!";"]))) ?_ (emptyParams_eq (typeToks_typish m)) ?_
    · simp [stoks, inst_tok_cons, inst_hole_cons, inst_nil, emptyParams]
    · simp only [List.cons_append, List.append_assoc, List.nil_append]
      refine statements_cons (j := k + 39) (us := .op b!"}" :: r) ?_ ⟨by simp, by simp, by simp⟩ rfl
      refine return_statement ?_ rfl
      exact expression_conjunction (n := k + 27) (e := emptyExpr) f l (.op b!"}" :: r) (fun x r => rfl) (fun r => rfl) (by
        rw [List.length_cons] at hk; omega)

theorem equal_function {k : Nat} {m : Message} (hk : m.fields.length ≤ k) (r : List Tok) :
    function (k + 40) (functionToks .equalEmpty .equalHeader .equalItem .equalFooter m ++ r) = some (equalFun m, r) := by
  unfold functionToks equalFun
  cases e : m.fields with
  | nil =>
    refine function_eq' (ptoks := equalParams (typeToks m)) (btoks := [.op b!"(", .word b!"void", .op b!")", .word b!"a", .op b!";",
      .op b!"(", .word b!"void", .op b!")", .word b!"b", .op b!";",
      .word b!"return", .word b!"true", .op b!";"]) ?_ (equalParams_eq (typeToks_typish m)) rfl
    simp [stoks, inst_tok_cons, inst_hole_cons, inst_nil, equalParams]
  | cons f l =>
    rw [e] at hk
    simp only [reduceCtorEq, if_false, item_dropLast]
    refine function_eq' (ptoks := equalParams (typeToks m)) (btoks := .word b!"return" :: (equalToks f ++ .op b!"&&" ::
      (l.flatMap (fun x => equalToks x ++ [.op b!"&&"]) ++ [.word b!"true", .op b!";"]))) ?_ (equalParams_eq (typeToks_typish m)) ?_
    · simp [stoks, inst_tok_cons, inst_hole_cons, inst_nil, equalParams]
    · simp only [List.cons_append, List.append_assoc, List.nil_append]
      refine statements_cons (j := k + 39) (us := .op b!"}" :: r) ?_ ⟨by simp, by simp, by simp⟩ rfl
      refine return_statement ?_ rfl
      exact expression_conjunction (n := k + 27) (e := equalExpr) f l (.op b!"}" :: r) (fun x r => rfl) (fun r => rfl) (by
        rw [List.length_cons] at hk; omega)

theorem clear_function {k : Nat} {m : Message} (hk : m.fields.length ≤ k) (r : List Tok) :
    function (k + 40) (functionToks .clearEmpty .clearHeader .clearItem .clearFooter m ++ r) = some (clearFun m, r) := by
  unfold functionToks clearFun
  split
  · refine function_eq' (ptoks := clearParams (typeToks m)) (btoks := [.op b!"(", .word b!"void", .op b!")", .word b!"value", .op b!";"])
      ?_ (clearParams_eq (typeToks_typish m)) rfl
    simp [stoks, inst_tok_cons, inst_hole_cons, inst_nil, clearParams]
  · refine function_eq' (ptoks := clearParams (typeToks m))
      (btoks := m.fields.flatMap (fun f => inst [[.word f.name]] (stoks .clearItem))) ?_ (clearParams_eq (typeToks_typish m)) ?_
    · simp only [stoks, inst_tok_cons, inst_hole_cons, inst_nil, clearParams, List.cons_append, List.append_assoc, List.nil_append]
      rfl
    · have := statements_map (c := 1) (st := clearStmt) (ss := []) (rest := .op b!"}" :: r) (rest' := .op b!"}" :: r) (j := k + 40)
        (l := m.fields) (tok := fun f => inst [[.word f.name]] (stoks .clearItem))
        (fun f _ r _ => clear_statement (k + 28) (k + 39) f.name r) (fun f _ r => ?_) (by simp) (fun j hj => ?_) (by omega)
      · simpa using this
      · exact ⟨⟨by simp [stoks, inst_tok_cons], by simp [stoks, inst_tok_cons], by simp [stoks, inst_tok_cons]⟩, by simp [stoks, inst_tok_cons]⟩
      · obtain ⟨j, rfl⟩ : ∃ i, j = i + 1 := ⟨j - 1, by omega⟩
        rfl

theorem swap_function {k : Nat} {m : Message} (hk : m.fields.length ≤ k) (r : List Tok) :
    function (k + 40) (functionToks .swapEmpty .swapHeader .swapItem .swapFooter m ++ r) = some (swapFun m, r) := by
  unfold functionToks swapFun
  split
  · refine function_eq' (ptoks := swapParams (typeToks m)) (btoks := [.op b!"(", .word b!"void", .op b!")", .word b!"a", .op b!";",
      .op b!"(", .word b!"void", .op b!")", .word b!"b", .op b!";"]) ?_ (swapParams_eq (typeToks_typish m)) rfl
    simp [stoks, inst_tok_cons, inst_hole_cons, inst_nil, swapParams]
  · refine function_eq' (ptoks := swapParams (typeToks m))
      (btoks := m.fields.flatMap (fun f => inst [[.word f.name]] (stoks .swapItem))) ?_ (swapParams_eq (typeToks_typish m)) ?_
    · simp only [stoks, inst_tok_cons, inst_hole_cons, inst_nil, swapParams, List.cons_append, List.append_assoc, List.nil_append]
      simp
    · have := statements_map (c := 1) (st := swapStmt) (ss := []) (rest := .op b!"}" :: r) (rest' := .op b!"}" :: r) (j := k + 40)
        (l := m.fields) (tok := fun f => inst [[.word f.name]] (stoks .swapItem))
        (fun f _ r _ => swap_statement (k + 28) (k + 39) f.name r) (fun f _ r => ?_) (by simp) (fun j hj => ?_) (by omega)
      · simpa using this
      · exact ⟨⟨by simp [stoks, inst_tok_cons], by simp [stoks, inst_tok_cons], by simp [stoks, inst_tok_cons]⟩, by simp [stoks, inst_tok_cons]⟩
      · obtain ⟨j, rfl⟩ : ∃ i, j = i + 1 := ⟨j - 1, by omega⟩
        rfl

/-- The end of `index`. -/
def findToks (r : List Tok) : List Tok :=
  .word b!"auto" :: .word b!"it" :: .op b!"=" :: .word b!"FIELDS" :: .op b!"." :: .word b!"find" :: .op b!"(" :: .word b!"temp" ::
  .op b!")" :: .op b!";" :: .word b!"return" :: .op b!"(" :: .word b!"it" :: .op b!"==" :: .word b!"FIELDS" :: .op b!"." ::
  .word b!"end" :: .op b!"(" :: .op b!")" :: .op b!")" :: .op b!"?" :: .op b!"-" :: .word b!"1" :: .op b!":" :: .word b!"it" ::
  .op b!"->" :: .word b!"second" :: .op b!";" :: r

theorem index_function {k : Nat} {ctx : Ctx} {m : Message} (hk : m.fields.length ≤ k) (r : List Tok) :
    function (k + 40) (indexToks ctx m ++ r) = some (indexFun ctx m, r) := by
  unfold indexToks indexFun
  simp only
  split
  · rfl
  · have hl : ((m.fields.filter Persistent).zipIdx).length ≤ k := by
      rw [List.length_zipIdx]
      exact Nat.le_trans (List.length_filter_le _ _) hk
    have hn : (m.fields.filter Persistent).zipIdx ≠ [] := by
      rwa [ne_eq, List.zipIdx_eq_nil_iff]
    generalize (m.fields.filter Persistent).zipIdx = l at hl hn ⊢
    cases l with
    | nil => exact absurd rfl hn
    | cons x l =>
    rw [List.length_cons] at hl
    refine function_eq' (ptoks := [.word b!"const", .word b!"std", .op b!"::", .word b!"string", .op b!"&", .word b!"name", .op b!")"])
      (btoks := (if ctx.obfuscate then [.word b!"std", .op b!"::", .word b!"string", .word b!"temp", .op b!"=", .word b!"reveal", .op b!"(",
          .word b!"name", .op b!")", .op b!";"]
        else [.word b!"const", .word b!"std", .op b!"::", .word b!"string", .op b!"&", .word b!"temp", .op b!"=", .word b!"name", .op b!";"]) ++
        .word b!"static" :: .word b!"const" :: .word b!"std" :: .op b!"::" :: .word b!"unordered_map" :: .op b!"<" :: .word b!"std" ::
        .op b!"::" :: .word b!"string" :: .op b!"," :: .word b!"int" :: .op b!">" :: .word b!"FIELDS" :: .op b!"=" :: .op b!"{" ::
        (entryToks ctx x ++ (l.flatMap (entryToks ctx) ++ .op b!"}" :: .op b!";" :: findToks [])))
      ?_ indexParams_eq ?_
    · rw [List.flatMap_cons]
      cases ctx.obfuscate <;> (simp [stoks, inst_tok_cons, inst_hole_cons, inst_nil, entryToks, findToks]; rfl)
    · have h2 : statement (k + 40) (k + 40) (.word b!"static" :: .word b!"const" :: .word b!"std" :: .op b!"::" :: .word b!"unordered_map" ::
          .op b!"<" :: .word b!"std" :: .op b!"::" :: .word b!"string" :: .op b!"," :: .word b!"int" :: .op b!">" :: .word b!"FIELDS" ::
          .op b!"=" :: .op b!"{" :: (entryToks ctx x ++ (l.flatMap (entryToks ctx) ++ .op b!"}" :: .op b!";" :: findToks (.op b!"}" :: r)))) =
          some (.decl tableType b!"FIELDS" (some (.braces ((x :: l).map (entryExpr ctx)))), findToks (.op b!"}" :: r)) := by
        have h3 := entries (k + 34) ctx x l (j := k + 39) (by omega) (.op b!";" :: findToks (.op b!"}" :: r))
        refine decl_statement (us := .word b!"const" :: .word b!"std" :: .op b!"::" :: .word b!"unordered_map" ::
          .op b!"<" :: .word b!"std" :: .op b!"::" :: .word b!"string" :: .op b!"," :: .word b!"int" :: .op b!">" :: .word b!"FIELDS" ::
          .op b!"=" :: .op b!"{" :: _) (by decide) rfl ?_
        show Option.map _ (items (expression (k + 39)) b!"}" true (k + 39) (entryToks ctx x ++ (l.flatMap (entryToks ctx) ++ _))) = _
        rw [h3]
        rfl
      have h4 : statements (statement (k + 40) (k + 40)) (k + 39) (.word b!"static" :: .word b!"const" :: .word b!"std" :: .op b!"::" ::
          .word b!"unordered_map" ::
          .op b!"<" :: .word b!"std" :: .op b!"::" :: .word b!"string" :: .op b!"," :: .word b!"int" :: .op b!">" :: .word b!"FIELDS" ::
          .op b!"=" :: .op b!"{" :: (entryToks ctx x ++ (l.flatMap (entryToks ctx) ++ .op b!"}" :: .op b!";" :: findToks (.op b!"}" :: r)))) =
          some (.decl tableType b!"FIELDS" (some (.braces ((x :: l).map (entryExpr ctx)))) ::
            [.decl [.word b!"auto"] b!"it" (some (.call (.member (.name b!"FIELDS") b!"find") [.name b!"temp"])),
            .ret (some (.cond (.binary b!"==" (.name b!"it") (.call (.member (.name b!"FIELDS") b!"end") []))
              (.unary b!"-" (.num 1)) (.arrow (.name b!"it") b!"second")))], .op b!"}" :: r) :=
        statements_cons (j := k + 38) h2 ⟨by simp, by simp, by simp⟩ rfl
      cases ctx.obfuscate <;> simp only [if_true, if_false, Bool.false_eq_true, List.cons_append, List.append_assoc, List.nil_append]
      · exact statements_cons (j := k + 39) rfl ⟨by simp, by simp, by simp⟩ h4
      · exact statements_cons (j := k + 39) rfl ⟨by simp, by simp, by simp⟩ h4

/-! ### The class -/

theorem functions_cons {n j : Nat} {ts us r : List Tok} {f : Fun} {fs : List Fun} (h0 : eat b!"}" ts = none)
    (h : function n ts = some (f, us)) (hr : functions n j us = some (fs, r)) : functions n (j + 1) ts = some (f :: fs, r) := by
  rw [functions, h0]
  simp only
  rw [h, Option.bind_some]
  simp only
  rw [hr]
  rfl

theorem functionToks_static (n : Nat) {ts r : List Tok} {f : Fun} (h : function n ts = some (f, r)) : eat b!"}" ts = none := by
  cases ts with
  | nil => rfl
  | cons t ts =>
    cases t with
    | op o =>
      rw [eat, if_neg]
      rintro rfl
      revert h
      rw [function, signature]
      simp
    | _ => rfl

theorem functions_all {k : Nat} {ctx : Ctx} {m : Message} (hk : m.fields.length ≤ k) (r : List Tok) :
    functions (k + 40) (k + 40) (.word b!"static" :: .word b!"int" :: .word b!"read" :: .op b!"(" :: (readParams (typeToks m) ++ .op b!"{" ::
      ([.word b!"return", .word b!"read_object", .op b!"(", .word b!"ctx", .op b!",", .word b!"value", .op b!")", .op b!";"] ++
        .op b!"}" :: (readToks m ++ (writeToks ctx m ++
    (functionToks .emptyEmpty .emptyHeader .emptyItem .emptyFooter m ++
    (functionToks .clearEmpty .clearHeader .clearItem .clearFooter m ++
    (functionToks .equalEmpty .equalHeader .equalItem .equalFooter m ++
    (functionToks .swapEmpty .swapHeader .swapItem .swapFooter m ++
    (indexToks ctx m ++ .op b!"}" :: r)))))))))) = some ((classOf ctx m).funs, r) := by
  have cons : ∀ {j : Nat} {ts us r : List Tok} {f : Fun} {fs : List Fun}, function (k + 40) ts = some (f, us) →
      functions (k + 40) j us = some (fs, r) → functions (k + 40) (j + 1) ts = some (f :: fs, r) :=
    fun h => functions_cons (functionToks_static _ h) h
  exact cons (read_function k m _) (cons (readField_function hk _) (cons (write_function hk _) (cons (empty_function hk _)
    (cons (clear_function hk _) (cons (equal_function hk _) (cons (swap_function hk _) (cons (index_function hk _) rfl)))))))

/-- **The class of a message is what is read from the text of its functions.** -/
theorem class_of {k : Nat} {rt : Runtime} {ctx : Ctx} {m : Message} (h : Lexed ctx m) (hk : m.fields.length ≤ k) :
    Class.of (k + 40) (textOf rt (wrapperCalls ctx m)) = some (classOf ctx m) := by
  have ht : specialization (k + 40) (wrapperToks ctx m) = some (classOf ctx m, []) := by
    have e : wrapperToks ctx m = .word b!"namespace" :: .word b!"protogen_3_0_0" ::
        (.op b!"{" :: .word b!"template" :: .op b!"<" :: .op b!">" :: .word b!"struct" :: .word b!"json" :: .op b!"<" ::
        (typeToks m ++ .op b!">" :: .op b!"{" ::
        .word b!"static" :: .word b!"int" :: .word b!"read" :: .op b!"(" :: (readParams (typeToks m) ++ .op b!"{" ::
      ([.word b!"return", .word b!"read_object", .op b!"(", .word b!"ctx", .op b!",", .word b!"value", .op b!")", .op b!";"] ++
        .op b!"}" :: (readToks m ++ (writeToks ctx m ++
    (functionToks .emptyEmpty .emptyHeader .emptyItem .emptyFooter m ++
    (functionToks .clearEmpty .clearHeader .clearItem .clearFooter m ++
    (functionToks .equalEmpty .equalHeader .equalItem .equalFooter m ++
    (functionToks .swapEmpty .swapHeader .swapItem .swapFooter m ++
    (indexToks ctx m ++ .op b!"}" :: [.op b!";", .op b!"}"]))))))))))) := by
      unfold wrapperToks
      have e1 : inst [[], typeToks m] (stoks .jsonModelHeader) = .word b!"namespace" :: .word b!"protogen_3_0_0" ::
        .op b!"{" :: .word b!"template" :: .op b!"<" :: .op b!">" :: .word b!"struct" :: .word b!"json" :: .op b!"<" ::
        (typeToks m ++ .op b!">" :: .op b!"{" ::
        .word b!"static" :: .word b!"int" :: .word b!"read" :: .op b!"(" :: (readParams (typeToks m) ++ .op b!"{" ::
      ([.word b!"return", .word b!"read_object", .op b!"(", .word b!"ctx", .op b!",", .word b!"value", .op b!")", .op b!";", .op b!"}"]))) := by
        simp [stoks, inst_tok_cons, inst_hole_cons, inst_nil, readParams]
      have e2 : inst [[]] (stoks .jsonModelFooter) = [.op b!"}", .op b!";", .op b!"}"] := rfl
      rw [e1, e2]
      simp only [List.cons_append, List.append_assoc, List.nil_append]
    rw [e, specialization]
    simp only [if_true]
    show Option.bind (argument _) _ = _
    rw [argument_eq (typeToks_typish m), Option.bind_some]
    show Option.bind (functions _ _ _) _ = _
    rw [functions_all hk]
    rfl
  have hw := Toks.wrapper rt h
  unfold Toks at hw
  rw [Class.of, tokens, hw]
  simp only [Option.bind_some]
  rw [ht]
  rfl

end PG.Cpp
