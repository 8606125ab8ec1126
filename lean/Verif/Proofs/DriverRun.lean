import Verif.Proofs.DriverAst
import Verif.Proofs.GenTypesRun
import Verif.Proofs.CxxInt
import Verif.Proofs.ProtoParsed
import Verif.Proofs.GenTree
import Verif.Proofs.ShowRun
import Verif.Props.Schema
/-
`main` of main.cc does what that of the model does.
-/
set_option autoImplicit false
namespace PG.Cxx.Throw
open PG.Proto PG.Gen PG.Cxx.Tools

section
variable {s : Bool} {rt : Runtime} {N : Nat} {w : Gen.World}
local notation "X" => driverLib s rt N w

theorem driver_signed : (X).base.signed = s := (rfl)
theorem driver_get (n : Name) (u : Driven) : (X).base.get n u = none := (rfl)
theorem driver_cout : (X).base.constant [n!"std", n!"cout"] = some (.dom .cout) := (rfl)
theorem driver_cerr : (X).base.constant [n!"std", n!"cerr"] = some (.dom .cerr) := (rfl)
theorem driver_endl : (X).base.constant [n!"std", n!"endl"] = some (.dom .endl) := (rfl)
theorem driver_ate : (X).base.constant [n!"std", n!"ios_base", n!"ate"] = some (.dom .ate) := (rfl)
theorem driver_nullptr : (X).base.constant [n!"nullptr"] = some (.dom .null) := (rfl)
theorem driver_path : (X).base.constant [n!"PATH_MAX"] = some (.int .i32 4096) := (rfl)
theorem driver_lambda : (X).base.constant [n!"lambda"] = some (.dom .less) := (rfl)
theorem driver_messages (u : Driven) : (X).base.member (.dom .proto) n!"messages" u =
    some (.arr ((List.range u.tree.messages.length).map fun i => .dom (.message i))) := (rfl)
theorem driver_fields (i : Nat) (u : Driven) : (X).base.member (.dom (.message i)) n!"fields" u = some (.dom (.fields i)) := (rfl)
theorem driver_line (t : Bytes) (l c : Int) (u : Driven) : (X).base.member (.dom (.problem t l c)) n!"line" u = some (.int .i32 l) := (rfl)
theorem driver_column (t : Bytes) (l c : Int) (u : Driven) : (X).base.member (.dom (.problem t l c)) n!"column" u = some (.int .i32 c) := (rfl)
theorem driver_addr1 (u : Driven) : unop (X).base n!"&" (.dom .cout) u = some (.dom (.to false)) := (rfl)
theorem driver_addr2 (u : Driven) : unop (X).base n!"&" (.dom .out) u = some (.dom (.to true)) := (rfl)
theorem driver_deref (b : Bool) (u : Driven) : (X).base.unary n!"*" (.dom (.to b)) u = some (.dom (if b then .out else .cout)) := by
  cases b <;> rfl
theorem driver_str (x : Bytes) (u : Driven) : (X).base.binary n!"<<" (.dom .cerr) (.str x) u = some (.dom .cerr, { u with err := u.err ++ x }) := (rfl)
theorem driver_chr (c : Int) (u : Driven) : (X).base.binary n!"<<" (.dom .cerr) (.int .char c) u = some (.dom .cerr, { u with err := u.err ++ [IT.toByte c] }) := (rfl)
theorem driver_int (c : Int) (u : Driven) : (X).base.binary n!"<<" (.dom .cerr) (.int .i32 c) u = some (.dom .cerr, { u with err := u.err ++ decInt c }) := (rfl)
theorem driver_newline (u : Driven) : (X).base.binary n!"<<" (.dom .cerr) (.dom .endl) u = some (.dom .cerr, { u with err := u.err ++ b!"\n" }) := (rfl)
theorem driver_null (u : Driven) : (X).base.binary n!"==" (.dom .null) (.dom .null) u = some (.bool true, u) := (rfl)
theorem driver_there (u : Driven) : (X).base.binary n!"==" (.dom .there) (.dom .null) u = some (.bool false, u) := (rfl)
theorem driver_assign (a b : Bool) : (X).base.assign (.dom (.to a)) (.dom (.to b)) = some (.dom (.to b)) := (rfl)
theorem driver_pointer (b : Bool) (u : Driven) : initial (X).base n!"std :: ostream *" (some (.dom (.to b))) u = some (.dom (.to b)) := by
  have h1 : intType n!"std :: ostream *" = none := by decide +kernel
  unfold initial
  rw [h1]
  rfl
theorem driver_file (u : Driven) : initial (X).base n!"std :: ofstream" none u = some (.dom .out) := by
  have h1 : intType n!"std :: ofstream" = none := by decide +kernel
  unfold initial
  rw [h1]
  rfl
theorem driver_proto (u : Driven) : initial (X).base n!"protogen :: Proto3" none u = some (.dom .proto) := by
  have h1 : intType n!"protogen :: Proto3" = none := by decide +kernel
  unfold initial
  rw [h1]
  rfl
theorem driver_gen (u : Driven) : initial (X).base n!"protogen :: CppGenerator" none u = some (.dom .gen) := by
  have h1 : intType n!"protogen :: CppGenerator" = none := by decide +kernel
  unfold initial
  rw [h1]
  rfl
theorem driver_usage (u : Driven) : (X).function [n!"main_usage"] u [] = if u.output = none ∧ u.toOut = [] then .thrown (.exit 1 (u.err ++ usage)) else .undef := (rfl)
theorem driver_error (x : Bytes) (u : Driven) : (X).function [n!"main_error"] u [.str x] =
    if u.output = none ∧ u.toOut = [] then .thrown (.exit 1 (u.err ++ b!"ERROR: " ++ x ++ b!"\n")) else .undef := (rfl)
theorem driver_in (x : Bytes) (u : Driven) : (X).function [n!"std :: ifstream"] u [.str x] = .ok (.dom .input, [], { u with input := w.openIn x }) := (rfl)
theorem driver_string (x : Bytes) (u : Driven) : (X).function [n!"std", n!"string"] u [.str x] = .ok (.str x, [], u) := (rfl)
theorem driver_real (x y : Bytes) (u : Driven) : (X).function [n!"realpath"] u [.str x, .str y] =
    match w.realpath x with
    | some full => .ok (.dom .there, [none, some (.str full)], u)
    | none => .ok (.dom .null, [], u) := (rfl)
theorem driver_sort (i : Nat) (u : Driven) : (X).function [n!"std", n!"sort"] u [.dom (.first i), .dom (.last i), .dom .less] =
    .ok (.void, [], { u with tree := sortAt u.tree i }) := by
  simp [driverLib]
theorem driver_good1 (u : Driven) : (X).method n!"good" u [.dom .input] = .ok (.bool u.input.isSome, [], u) := (rfl)
theorem driver_good2 (u : Driven) : (X).method n!"good" u [.dom .out] = .ok (.bool u.output.isSome, [], u) := (rfl)
theorem driver_close1 (u : Driven) : (X).method n!"close" u [.dom .input] = .ok (.void, [], { u with input := none }) := (rfl)
theorem driver_close2 (u : Driven) : (X).method n!"close" u [.dom .out] = .ok (.void, [], u) := (rfl)
theorem driver_open (x : Bytes) (u : Driven) (h : u.output = none) : (X).method n!"open" u [.dom .out, .str x, .dom .ate] =
    match w.openOut x with
    | some f => .ok (.void, [], { u with output := some f, content := put u.content f [] })
    | none => .ok (.void, [], u) := by
  simp [driverLib, h]
  rfl
theorem driver_parse (full f : Bytes) (u : Driven) (h : u.input = some f) (ht : u.tree = Tree.empty) : (X).method n!"parse" u [.dom .proto, .dom .input, .str full] =
    (Schema.ranOf (Proto.parse N ((u.content f).getD []))).bind fun t => .ok (.void, [], { u with tree := t, fileName := full }) := by
  simp [driverLib, h, ht]
theorem driver_begin (i : Nat) (u : Driven) : (X).method n!"begin" u [.dom (.fields i)] = .ok (.dom (.first i), [], u) := (rfl)
theorem driver_end (i : Nat) (u : Driven) : (X).method n!"end" u [.dom (.fields i)] = .ok (.dom (.last i), [], u) := (rfl)
theorem driver_generate (b : Bool) (u : Driven) (h : b = true → u.output ≠ none) :
    (X).method n!"generate" u [.dom .gen, .dom .proto, .dom (if b then .out else .cout)] = generated rt b u := by
  cases b
  · rfl
  · simp [driverLib, h rfl]
theorem driver_cause (t : Bytes) (l c : Nat) (u : Driven) : (X).method n!"cause" u [.dom (.problem t l c)] =
    .ok (.str (cause t l c), [], u) := (rfl)
theorem driver_caught (t : Bytes) (l c : Int) (u : Driven) : (X).caught n!"protogen :: exception &" (.exception t l c) u = some (.dom (.problem t l c), u) := (rfl)
theorem driver_later (b : Bool) (x t : Bytes) (l c : Int) (u : Driven) : (X).caught n!"protogen :: exception &" (.later b x t l c) u =
    some (.dom (.problem t l c), if b then { u with toFile := u.toFile ++ x } else { u with toOut := u.toOut ++ x }) := (rfl)
theorem driver_array : (X).array n!"char" (.int .i32 4096) (.arr [.int .i32 0]) = some (.str []) := (rfl)

attribute [local cxt] driver_signed driver_get driver_cout driver_cerr driver_endl driver_ate driver_nullptr driver_path driver_lambda
  driver_messages driver_fields driver_line driver_column driver_addr1 driver_addr2 driver_deref driver_str driver_chr driver_int
  driver_newline driver_null driver_there driver_assign driver_pointer driver_file driver_proto driver_gen driver_usage driver_error
  driver_in driver_string driver_sort driver_good1 driver_good2 driver_close1 driver_close2 driver_begin driver_end
  driver_cause driver_caught driver_later driver_array

/-- The variables in the loop over the messages. -/
def driverVars (V : List (List (Name × Val DriverVal))) (i : Nat) (u : Driven) : St DriverVal Driven :=
  ⟨[(n!"message'", .int .u64 i)] :: V, u⟩

theorem sortBody (n : Nat) (V : List (List (Name × Val DriverVal))) (i : Nat) (u : Driven) (hi : i < u.tree.messages.length)
    (hp : getVar n!"proto" V = some (.dom .proto)) (h1 : getVar n!"lambda" V = none) :
    exec X n driverFunBody1 (driverVars V i u) = .ok (.next, driverVars V i { u with tree := sortAt u.tree i }) := by
  have h2 : (List.map (fun i => Val.dom (DriverVal.message i)) (List.range u.tree.messages.length))[i]? = some (.dom (.message i)) := by
    rw [List.getElem?_map, List.getElem?_range hi]; rfl
  cxg [driverFunBody1, driverVars, hp, h1, h2]

/-- The tree when the fields of the first messages have been sorted. -/
def sortedTo (t : Tree) (i : Nat) : Tree :=
  { t with messages := (t.messages.take i).map (fun m => { m with fields := sortByName m.fields }) ++ t.messages.drop i }

theorem sortedTo_length (t : Tree) (i : Nat) : (sortedTo t i).messages.length = t.messages.length := by
  simp only [sortedTo, List.length_append, List.length_map, List.length_take, List.length_drop]
  omega

theorem sortedTo_zero (t : Tree) : sortedTo t 0 = t := by
  simp [sortedTo]

theorem sortedTo_all (t : Tree) : sortedTo t t.messages.length = sortTree t := by
  simp [sortedTo, sortTree]

theorem sortedTo_succ (t : Tree) (i : Nat) (h : i < t.messages.length) : sortAt (sortedTo t i) i = sortedTo t (i + 1) := by
  unfold sortAt sortedTo
  congr 1
  simp only
  apply List.ext_getElem?
  intro j
  rw [List.getElem?_modify]
  by_cases hj : j < i
  · rw [List.getElem?_append_left (by simp; omega), List.getElem?_append_left (by simp; omega)]
    simp [List.getElem?_take, hj, show j < i + 1 by omega, show ¬ i = j by omega]
  · by_cases he : i = j
    · subst he
      rw [List.getElem?_append_right (by simp; omega), List.getElem?_append_left (by simp; omega)]
      simp [List.getElem?_take, List.getElem?_drop, Nat.min_eq_left (Nat.le_of_lt h)]
    · rw [List.getElem?_append_right (by simp; omega), List.getElem?_append_right (by simp; omega)]
      simp [List.getElem?_drop, he, Nat.min_eq_left (Nat.le_of_lt h), Nat.min_eq_left (Nat.succ_le_of_lt h), show i + (j - i) = j by omega,
        show i + 1 + (j - (i + 1)) = j by omega]

/-- The condition of the loop. -/
def sortTest : Expr := .binary n!"!=" (.name n!"message'") (.call (.member (.member (.name n!"proto") n!"messages") n!"size") .nil)

theorem sortLoop (m : Nat) (V : List (List (Name × Val DriverVal))) (t : Tree) (u : Driven) (hl : t.messages.length < 18446744073709551616)
    (hp : getVar n!"proto" V = some (.dom .proto)) (h1 : getVar n!"lambda" V = none) : ∀ (k i n : Nat), i + k = t.messages.length → k < n →
    iterate (test X sortTest) (exec X m driverFunBody1) (perform X (.incr n!"++" true (.name n!"message'"))) n
      (driverVars V i { u with tree := sortedTo t i }) =
      .ok (.next, driverVars V t.messages.length { u with tree := sortTree t }) := by
  intro k
  induction k with
  | zero =>
    intro i n hi hn
    obtain ⟨n, rfl⟩ : ∃ k, n = k + 1 := ⟨n - 1, by omega⟩
    have hi : i = t.messages.length := by omega
    subst hi
    rw [iterate_done (s1 := driverVars V t.messages.length { u with tree := sortedTo t t.messages.length }) (by
      have h2 := sortedTo_length t t.messages.length
      cxg [driverVars, sortTest, hp, List.length_map, List.length_range, h2])]
    rw [sortedTo_all]
  | succ k ih =>
    intro i n hi hn
    obtain ⟨n, rfl⟩ : ∃ k, n = k + 1 := ⟨n - 1, by omega⟩
    have hlt : i < t.messages.length := by omega
    have h2 := sortedTo_length t i
    have h3 : ¬ (i : Int) = (t.messages.length : Int) := by omega
    have h4 : IT.fit .u64 ((i : Int) + 1) = some ((i + 1 : Nat) : Int) := PG.Cxx.fit_nat rfl (by simp only [IT.top]; omega)
    rw [iterate_next (s3 := driverVars V (i + 1) { u with tree := sortedTo t (i + 1) })
      (s2 := driverVars V i { u with tree := sortedTo t (i + 1) })
      (s1 := driverVars V i { u with tree := sortedTo t i })
      (by cxg [driverVars, sortTest, hp, List.length_map, List.length_range, h2, h3])
      (by rw [sortBody m V i _ (by rw [h2]; exact hlt) hp h1]; simp only [sortedTo_succ t i hlt])
      (by cxg [driverVars, h4])]
    exact ih (i + 1) n (by omega) (by omega)

/-- The loop over the messages. -/
def driverLoop : Stmt := (.for (.decl n!"size_t" n!"message'" (some (.int .i32
  0))) (.binary n!"!=" (.name n!"message'") (.call (.member (.member (.name n!"proto") n!"messages") n!"size") .nil)) (.incr
  n!"++" true (.name n!"message'")) driverFunBody1)

/-- What is tried. -/
def driverBlock : Stmt := (.block (.cons (.expr (.call (.member (.name n!"proto") n!"parse")
  (.cons (.name n!"input") (.cons (.name n!"fullPath") .nil)))) (.cons driverLoop (.cons (.decl n!"protogen :: CppGenerator" n!"gen" none) (.cons (.expr
  (.call (.member (.name n!"gen") n!"generate") (.cons (.name n!"proto") (.cons (.unary n!"*" (.name n!"output")) .nil))))
  .nil)))))

/-- The handler. -/
def driverHandler : Stmt := (.block (.cons (.expr (.binary n!"<<" (.binary n!"<<" (.binary n!"<<" (.binary
  n!"<<" (.binary n!"<<" (.binary n!"<<" (.binary n!"<<" (.binary n!"<<" (.qual [n!"std", n!"cerr"]) (.name n!"fullPath"))
  (.chr 58)) (.member (.name n!"ex") n!"line")) (.chr 58)) (.member (.name n!"ex") n!"column")) (.str [58, 32, 101, 114, 114,
  111, 114, 58, 32])) (.call (.member (.name n!"ex") n!"cause") .nil)) (.qual [n!"std", n!"endl"]))) (.cons (.expr (.assign
  (.name n!"result") (.int .i32 1))) .nil)))

/-- The `try` with its handler. -/
def driverTry : Stmt := (.attempt driverBlock n!"protogen :: exception &" n!"ex" driverHandler)

/-- `main` from where both files are open. -/
def driverWork : Stmts := (.cons (.decl n!"int" n!"result" (some (.int .i32 0))) (.cons (.array n!"char" n!"fullPath" (.name n!"PATH_MAX") (some
  (.braces (.cons (.int .i32 0) .nil)))) (.cons (.ite (.binary n!"==" (.call (.name n!"realpath") (.cons (.index (.name
  n!"argv") (.int .i32 1)) (.cons (.name n!"fullPath") .nil))) (.name n!"nullptr")) (.ret (some (.int .i32 1))) .skip)
  (.cons (.decl n!"protogen :: Proto3" n!"proto" none) (.cons driverTry (.cons (.expr (.call (.member (.name n!"input")
  n!"close") .nil)) (.cons (.ite (.binary n!"==" (.name n!"argc") (.int .i32 3)) (.expr (.call (.member (.name n!"out")
  n!"close") .nil)) .skip) (.cons (.ret (some (.name n!"result"))) .nil))))))))

theorem driverFun_eq : driverFun = ⟨n!"int", n!"main", [(n!"int", n!"argc"), (n!"char * *", n!"argv")], (.cons (.ite (.binary n!"&&" (.binary n!"!=" (.name
  n!"argc") (.int .i32 2)) (.binary n!"!=" (.name n!"argc") (.int .i32 3))) (.expr (.call (.name n!"main_usage") .nil))
  .skip) (.cons (.made n!"std :: ifstream" n!"input" (.cons (.index (.name n!"argv") (.int .i32 1)) .nil)) (.cons (.ite
  (.unary n!"!" (.call (.member (.name n!"input") n!"good") .nil)) (.expr (.call (.name n!"main_error") (.cons (.binary
  n!"+" (.binary n!"+" (.call (.qual [n!"std", n!"string"]) (.cons (.str [85, 110, 97, 98, 108, 101, 32, 116, 111, 32, 111,
  112, 101, 110, 32, 39]) .nil)) (.index (.name n!"argv") (.int .i32 1))) (.str [39])) .nil))) .skip) (.cons (.decl n!"std :: ostream *" n!"output" (some (.unary n!"&" (.qual [n!"std", n!"cout"])))) (.cons (.decl n!"std :: ofstream" n!"out"
  none) (.cons (.ite (.binary n!"==" (.name n!"argc") (.int .i32 3)) (.block (.cons (.expr (.call (.member (.name n!"out")
  n!"open") (.cons (.index (.name n!"argv") (.int .i32 2)) (.cons (.qual [n!"std", n!"ios_base", n!"ate"]) .nil)))) (.cons
  (.ite (.unary n!"!" (.call (.member (.name n!"out") n!"good") .nil)) (.expr (.call (.name n!"main_error") (.cons (.binary
  n!"+" (.binary n!"+" (.call (.qual [n!"std", n!"string"]) (.cons (.str [85, 110, 97, 98, 108, 101, 32, 116, 111, 32, 111,
  112, 101, 110, 32, 39]) .nil)) (.index (.name n!"argv") (.int .i32 2))) (.str [39])) .nil))) .skip) (.cons (.expr (.assign
  (.name n!"output") (.unary n!"&" (.name n!"out")))) .nil)))) .skip) driverWork))))))⟩ := rfl

/-- The variables at the `try`. -/
def driverState (argc : Int) (argv : List (Val DriverVal)) (full : Bytes) (f : Bool) (r : Int) (u : Driven) : St DriverVal Driven :=
  ⟨[[(n!"proto", .dom .proto), (n!"fullPath", .str full), (n!"result", .int .i32 r), (n!"out", .dom .out), (n!"output", .dom (.to f)),
      (n!"input", .dom .input)],
    [(n!"argc", .int .i32 argc), (n!"argv", .arr argv)]], u⟩

theorem handler_runs (n : Nat) (argc : Int) (argv : List (Val DriverVal)) (full : Bytes) (f : Bool) (text : Bytes) (line col : Nat) (u : Driven) :
    (exec X n driverHandler ((driverState argc argv full f 0 u).enter.declare n!"ex" (.dom (.problem text line col)))).bind
        (fun q => Ran.ok (q.1, q.2.leave)) =
      .ok (.next, driverState argc argv full f 1 { u with err := u.err ++ diagnostic full text line col }) := by
  cxg [driverHandler, driverState, diagnostic, cause, decInt_nat, List.append_assoc]

/-- What is printed goes where it should. -/
def Driven.print (f : Bool) (x : Bytes) (u : Driven) : Driven :=
  if f then { u with toFile := u.toFile ++ x } else { u with toOut := u.toOut ++ x }

theorem generated_form (rt : Runtime) (f : Bool) (u : Driven) (hc : counted u.tree.messages = true) :
    (∃ v, generated rt f u = .ok (.void, [], v)) ∨ (∃ e, generated rt f u = .thrown e) ∨ generated rt f u = .fuel := by
  unfold generated
  rw [hc, Bool.not_true]
  simp only [Bool.false_eq_true, if_false]
  cases h : (generate (u.tree.messages.length + 1) u.fileName u.tree).res with
  | ok a => cases a; simp only [h]; exact Or.inl ⟨_, rfl⟩
  | exc x => simp only [h]; exact Or.inr (Or.inl ⟨_, rfl⟩)
  | running => simp only [h]; exact Or.inr (Or.inr trivial)

theorem try_runs (n : Nat) (argc : Int) (argv : List (Val DriverVal)) (full fi : Bytes) (f : Bool) (u : Driven) (hi : u.input = some fi)
    (he : u.tree = Tree.empty) (ho : f = true → u.output ≠ none) (hn : N < n) (hN : N < 18446744073709551616)
    (hsmall : ∀ t, Proto.parse N ((u.content fi).getD []) = .ok t → t.messages.length ≤ N ∧ counted (sortTree t).messages = true) :
    exec X n driverTry (driverState argc argv full f 0 u) =
      match Proto.parse N ((u.content fi).getD []) with
      | .fuel => .fuel
      | .runtime => .thrown (.runtime b!"unable to unget")
      | .exc e => .ok (.next, driverState argc argv full f 1 { u with err := u.err ++ diagnostic full (excText e) e.line e.col })
      | .ok t =>
        let e := generate (t.messages.length + 1) full (sortTree t)
        match e.res with
        | .ok () => .ok (.next, driverState argc argv full f 0 (Driven.print f (textOf rt e.calls) { u with tree := sortTree t, fileName := full }))
        | .exc x => .ok (.next, driverState argc argv full f 1
            { Driven.print f (textOf rt e.calls) u with err := u.err ++ diagnostic full x.text x.line x.col })
        | .running => .fuel := by
  have hb : ∀ r, exec X n driverBlock (driverState argc argv full f 0 u) = r → exec X n driverTry (driverState argc argv full f 0 u) =
      match r with
      | .thrown e =>
        match (X).caught n!"protogen :: exception &" e u with
        | some (v, lib) =>
          (exec X n driverHandler ((driverState argc argv full f 0 lib).enter.declare n!"ex" v)).bind fun q => .ok (q.1, q.2.leave)
        | none => .thrown e
      | r => r := by
    rintro _ rfl
    unfold driverTry
    rw [exec]
    cases exec X n driverBlock (driverState argc argv full f 0 u) with
    | thrown e =>
      simp only [driverState]
      cases (X).caught n!"protogen :: exception &" e u <;> rfl
    | _ => rfl
  have hpar := driver_parse (s := s) (rt := rt) (w := w) (N := N) full fi u hi he
  cases hps : Proto.parse N ((u.content fi).getD []) with
  | fuel =>
    rw [hb .fuel]
    cxg [driverBlock, driverState, hpar, hps, Schema.ranOf]
  | runtime =>
    rw [hb (.thrown (.runtime b!"unable to unget"))]
    · rfl
    cxg [driverBlock, driverState, hpar, hps, Schema.ranOf]
  | exc e =>
    rw [hb (.thrown (.exception (excText e) e.line e.col))]
    · simp only [driver_caught]
      rw [handler_runs]
    cxg [driverBlock, driverState, hpar, hps, Schema.ranOf]
  | ok t =>
    obtain ⟨hl, hct⟩ := hsmall t hps
    have hs : (sortTree t).messages.length = t.messages.length := by simp [sortTree]
    have hloop := fun (V : List (List (Name × Val DriverVal))) (hp : getVar n!"proto" V = some (.dom .proto)) (h1 : getVar n!"lambda" V = none) =>
      sortLoop (s := s) (rt := rt) (N := N) (w := w) n V t { u with fileName := full } (by omega) hp h1 t.messages.length 0 n (by omega) (by omega)
    have hblock : exec X n driverBlock (driverState argc argv full f 0 u) =
        (generated rt f { u with tree := sortTree t, fileName := full }).bind fun r => .ok (.next, driverState argc argv full f 0 r.2.2) := by
      have hgen := driver_generate (s := s) (rt := rt) (N := N) (w := w) f { u with tree := sortTree t, fileName := full } ho
      simp only [sortedTo_zero, driverVars, sortTest, Int.cast_ofNat_Int] at hloop
      cxg [driverBlock, driverLoop, driverState, hpar, hps, Schema.ranOf]
      rw [hloop _ (by rfl) (by rfl)]
      rcases generated_form rt f { u with tree := sortTree t, fileName := full } hct with ⟨v, hv⟩ | ⟨e, hv⟩ | hv <;> rw [hv] at hgen ⊢ <;> cxg [hgen, driverState]
    rw [hb _ hblock]
    unfold generated
    dsimp only
    rw [hs, hct, Bool.not_true]
    simp only [Bool.false_eq_true, if_false]
    cases hres : (generate (t.messages.length + 1) full (sortTree t)).res with
    | ok a =>
      cases a
      simp only [hres]
      cases f <;> rfl
    | exc x =>
      have ht : ∀ (e : Thrown) (k : _ → Ran (Flow DriverVal × St DriverVal Driven)),
          (Ran.thrown e : Ran (Val DriverVal × List (Option (Val DriverVal)) × Driven)).bind k = .thrown e := fun _ _ => rfl
      simp only [hres, ht, driver_later]
      cases f <;> (simp only [Bool.false_eq_true, if_true, if_false]; rw [handler_runs]; rfl)
    | running => simp only [hres]; rfl

theorem resolve_length {msgs : List Message} : ∀ {l r : List Message}, resolveMessages msgs l = .ok r → r.length = l.length := by
  intro l
  induction l with
  | nil => intro r h; cases h; rfl
  | cons m l ih =>
    intro r h
    rw [resolveMessages] at h
    obtain ⟨a, _, h⟩ := bind_ok h
    obtain ⟨b, hb, h⟩ := bind_ok h
    cases h
    simp [ih hb]

theorem resolveFields_length {msgs : List Message} : ∀ {l r : List Field}, resolveFields msgs l = .ok r → r.length = l.length := by
  intro l
  induction l with
  | nil => intro r h; cases h; rfl
  | cons f l ih =>
    intro r h
    rw [resolveFields] at h
    split at h
    · obtain ⟨a, ha, h⟩ := bind_ok h
      cases h
      simp [ih ha]
    · split at h
      · cases h
      · obtain ⟨a, ha, h⟩ := bind_ok h
        cases h
        simp [ih ha]

theorem resolve_fields {msgs : List Message} {k : Nat} : ∀ {l r : List Message}, resolveMessages msgs l = .ok r →
    (∀ m ∈ l, m.fields.length ≤ k) → ∀ m ∈ r, m.fields.length ≤ k := by
  intro l
  induction l with
  | nil => intro r h _ m hm; cases h; cases hm
  | cons x l ih =>
    intro r h hl m hm
    rw [resolveMessages] at h
    obtain ⟨a, ha, h⟩ := bind_ok h
    obtain ⟨b, hb, h⟩ := bind_ok h
    cases h
    rcases List.mem_cons.mp hm with rfl | hm
    · have := hl x (List.mem_cons_self ..)
      have := resolveFields_length ha
      simp only
      omega
    · exact ih hb (fun m h => hl m (List.mem_cons_of_mem _ h)) m hm

/-- A schema that is read in `N` steps has at most `N` messages and at most `N` fields in each. -/
theorem parse_sizes {N : Nat} {text : Bytes} {t : Tree} (h : Proto.parse N text = .ok t) :
    t.messages.length ≤ N ∧ ∀ m ∈ t.messages, m.fields.length ≤ N := by
  unfold Proto.parse parseFrom at h
  obtain ⟨a, ha, h⟩ := bind_ok h
  obtain ⟨b, hb, h⟩ := bind_ok h
  cases h
  have h1 := parseProto_small (Proto.lex N) (k := 0) N ha ⟨Nat.le_refl 0, fun m hm => by cases hm⟩
  have h2 := resolve_length hb
  refine ⟨?_, resolve_fields hb h1.2⟩
  have := h1.1
  simp only
  omega

theorem parse_few {N : Nat} {text : Bytes} {t : Tree} (h : Proto.parse N text = .ok t) : t.messages.length ≤ N := (parse_sizes h).1

theorem parse_counted {N : Nat} {text : Bytes} {t : Tree} (h : Proto.parse N text = .ok t) (hN : N < 18446744073709551616) :
    counted (sortTree t).messages = true := by
  have hs := parse_sizes h
  have hl := (sortTree_same t).linked (parse_linked h)
  have he := (sortTree_same t).1
  unfold counted
  rw [Bool.and_eq_true, List.all_eq_true]
  refine ⟨decide_eq_true (by omega), fun m hm => ?_⟩
  obtain ⟨i, hi, hmi⟩ := List.mem_iff_getElem.mp hm
  have hmi' : (sortTree t).messages[i]? = some m := by rw [List.getElem?_eq_getElem hi, hmi]
  obtain ⟨m', hm', hp, _⟩ := (sortTree_same t).symm.get hmi'
  rw [Bool.and_eq_true, List.all_eq_true]
  refine ⟨decide_eq_true (by rw [hp.length_eq]; exact Nat.lt_of_le_of_lt (hs.2 m' (List.mem_of_getElem? hm')) hN), fun f hf => ?_⟩
  split
  · rfl
  · next j hj => exact decide_eq_true (hl i j ⟨m, f, hmi', hf, hj⟩)

/-- The state in which `main` begins. -/
def Driven.begin (w : Gen.World) : Driven := { content := w.content }

theorem main_usage_runs (n : Nat) (argc : Int) (v : Val DriverVal) (h2 : argc ≠ 2) (h3 : argc ≠ 3) :
    run X n driverFun [.int .i32 argc, v] (Driven.begin w) = .thrown (.exit 1 usage) := by
  cxg [driverFun_eq, Driven.begin, h2, h3, List.nil_append]


theorem put_put (c : Bytes → Option Bytes) (f x y : Bytes) : put (put c f x) f y = put c f y := by
  funext g
  unfold put
  split <;> rfl

theorem fit_nil (r : Option Nat) : Gen.fit r [] = [] := by cases r <;> simp [Gen.fit]

/-- The variables when the files are open. -/
def openState (argc : Int) (argv : List (Val DriverVal)) (f : Bool) (u : Driven) : St DriverVal Driven :=
  ⟨[[(n!"out", .dom .out), (n!"output", .dom (.to f)), (n!"input", .dom .input)], [(n!"argc", .int .i32 argc), (n!"argv", .arr argv)]], u⟩

theorem work_runs (n : Nat) (argc : Int) (argv : List (Val DriverVal)) (i fi : Bytes) (out : Option Bytes) (c : Bytes → Option Bytes)
    (hargc : argc = if out.isSome then 3 else 2) (hargv : argv[1]? = some (.str i)) (hc : ∀ f, out = some f → put c f [] = c)
    (hn : N < n) (hN : N < 18446744073709551616) :
    (∀ k, (work rt N w i fi out c).status = some k → ∃ V u,
      execAll X n driverWork (openState argc argv out.isSome { input := some fi, output := out, content := c }) =
        .ok (.ret (.int .i32 k), ⟨V, u⟩) ∧ u.run w k = work rt N w i fi out c) ∧
    ((work rt N w i fi out c).status = none →
      execAll X n driverWork (openState argc argv out.isSome { input := some fi, output := out, content := c }) = .fuel) := by
  unfold work
  have hreal := fun y u => driver_real (s := s) (rt := rt) (N := N) (w := w) i y u
  cases hr : w.realpath i with
  | none =>
    simp only [hr] at hreal
    constructor
    · rintro k ⟨⟩
      refine ⟨_, _, by cxg [driverWork, openState, Int.reduceLT, Int.reduceToNat, hargv, hreal]; rfl, ?_⟩
      cases out with
      | none => simp [Driven.run, fit_nil]
      | some f => simp [Driven.run, fit_nil, hc f rfl]
    · intro h; cases h
  | some full =>
    simp only [hr] at hreal
    have htry := try_runs (s := s) (rt := rt) (N := N) (w := w) n argc argv full fi out.isSome
      { input := some fi, output := out, content := c } rfl rfl (by cases out <;> simp) hn hN fun t ht => ⟨parse_few ht, parse_counted ht hN⟩
    simp only [driverState] at htry
    unfold compile
    cases hp : Proto.parse N ((c fi).getD []) with
    | fuel =>
      rw [hp] at htry
      simp only at htry
      constructor
      · intro k h; cases out <;> cases h
      · intro _; cxg [driverWork, openState, Int.reduceLT, Int.reduceToNat, hargv, hreal, htry]
    | runtime =>
      rcases C44_only_protogen_exceptions N ((c fi).getD []) with ⟨t, h⟩ | ⟨e, h, _⟩ | h <;> rw [hp] at h <;> cases h
    | exc e =>
      rw [hp] at htry
      simp only at htry
      constructor
      · intro k h
        cases out with
        | none =>
          cases h
          simp only [Option.isSome_none, Bool.false_eq_true, if_false] at hargc
          subst hargc
          refine ⟨_, _, by cxg [driverWork, openState, Int.reduceLT, Int.reduceToNat, hargv, hreal, htry]; rfl, ?_⟩
          simp [Driven.run, deliver]
        | some f =>
          cases h
          simp only [Option.isSome_some, if_true] at hargc
          subst hargc
          refine ⟨_, _, by cxg [driverWork, openState, Int.reduceLT, Int.reduceToNat, hargv, hreal, htry]; rfl, ?_⟩
          simp [Driven.run, deliver, fit_nil]
      · intro h; cases out <;> cases h
    | ok t =>
      rw [hp] at htry
      simp only at htry ⊢
      cases hres : (generate (t.messages.length + 1) full (sortTree t)).res with
      | running =>
        simp only [hres] at htry ⊢
        constructor
        · intro k h; cases out <;> cases h
        · intro _; cxg [driverWork, openState, Int.reduceLT, Int.reduceToNat, hargv, hreal, htry]
      | ok a =>
        cases a
        simp only [hres] at htry ⊢
        constructor
        · intro k h
          cases out with
          | none =>
            cases h
            simp only [Option.isSome_none, Bool.false_eq_true, if_false] at hargc
            subst hargc
            refine ⟨_, _, by cxg [driverWork, openState, Int.reduceLT, Int.reduceToNat, hargv, hreal, htry]; rfl, ?_⟩
            simp [Driven.run, deliver, Driven.print]
          | some f =>
            cases h
            simp only [Option.isSome_some, if_true] at hargc
            subst hargc
            refine ⟨_, _, by cxg [driverWork, openState, Int.reduceLT, Int.reduceToNat, hargv, hreal, htry]; rfl, ?_⟩
            simp [Driven.run, deliver, fit_nil, Driven.print]
        · intro h; cases out <;> cases h
      | exc x =>
        simp only [hres] at htry ⊢
        constructor
        · intro k h
          cases out with
          | none =>
            cases h
            simp only [Option.isSome_none, Bool.false_eq_true, if_false] at hargc
            subst hargc
            refine ⟨_, _, by cxg [driverWork, openState, Int.reduceLT, Int.reduceToNat, hargv, hreal, htry]; rfl, ?_⟩
            simp [Driven.run, deliver, Driven.print]
          | some f =>
            cases h
            simp only [Option.isSome_some, if_true] at hargc
            subst hargc
            refine ⟨_, _, by cxg [driverWork, openState, Int.reduceLT, Int.reduceToNat, hargv, hreal, htry]; rfl, ?_⟩
            simp [Driven.run, deliver, fit_nil, Driven.print]
        · intro h; cases out <;> cases h

theorem args1 {D : Type} (a b : Val D) : [a, b][1]? = some b := rfl
theorem args31 {D : Type} (a b c : Val D) : [a, b, c][1]? = some b := rfl
theorem args32 {D : Type} (a b c : Val D) : [a, b, c][2]? = some c := rfl

theorem cannot (i : Bytes) : b!"ERROR: " ++ (b!"Unable to open '" ++ i ++ b!"'") ++ b!"\n" = cannotOpen i := by
  unfold cannotOpen
  simp

theorem main_one (n : Nat) (p i : Bytes) (hn : N < n) (hN : N < 18446744073709551616) :
    (∀ k, (Gen.main rt N w [i]).status = some k →
      Tools.ended w (run X n driverFun [.int .i32 2, .arr [.str p, .str i]] (Driven.begin w)) = some (Gen.main rt N w [i])) ∧
    ((Gen.main rt N w [i]).status = none →
      run X n driverFun [.int .i32 2, .arr [.str p, .str i]] (Driven.begin w) = .fuel) := by
  unfold Gen.main
  cases hi : w.openIn i with
  | none =>
    have h : run X n driverFun [.int .i32 2, .arr [.str p, .str i]] (Driven.begin w) = .thrown (.exit 1 (cannotOpen i)) := by
      cxg [driverFun_eq, Driven.begin, Int.reduceLT, Int.reduceToNat, args1, hi, List.nil_append, Option.isSome_none, Bool.not_false, cannot]
    rw [h]
    simp [Tools.ended, hi]
  | some fi =>
    simp only [hi]
    have h := work_runs (s := s) (rt := rt) (N := N) (w := w) n 2 [.str p, .str i] i fi none w.content rfl rfl (by intro f h; cases h) hn hN
    simp only [openState, Option.isSome_none] at h
    constructor
    · intro k hk
      obtain ⟨V, u, h1, h2⟩ := h.1 k hk
      rw [← h2]
      cxg [driverFun_eq, Driven.begin, Int.reduceLT, Int.reduceToNat, args1, hi, List.nil_append, Option.isSome_some, Bool.not_true, h1]
      simp [Tools.ended]
    · intro hk
      cxg [driverFun_eq, Driven.begin, Int.reduceLT, Int.reduceToNat, args1, hi, List.nil_append, Option.isSome_some, Bool.not_true, h.2 hk]

theorem main_two (n : Nat) (p i o : Bytes) (hn : N < n) (hN : N < 18446744073709551616) :
    (∀ k, (Gen.main rt N w [i, o]).status = some k →
      Tools.ended w (run X n driverFun [.int .i32 3, .arr [.str p, .str i, .str o]] (Driven.begin w)) = some (Gen.main rt N w [i, o])) ∧
    ((Gen.main rt N w [i, o]).status = none →
      run X n driverFun [.int .i32 3, .arr [.str p, .str i, .str o]] (Driven.begin w) = .fuel) := by
  unfold Gen.main
  cases hi : w.openIn i with
  | none =>
    have h : run X n driverFun [.int .i32 3, .arr [.str p, .str i, .str o]] (Driven.begin w) = .thrown (.exit 1 (cannotOpen i)) := by
      cxg [driverFun_eq, Driven.begin, Int.reduceLT, Int.reduceToNat, args31, hi, List.nil_append, Option.isSome_none, Bool.not_false, cannot]
    rw [h]
    simp [Tools.ended, hi]
  | some fi =>
    have hopen := driver_open (s := s) (rt := rt) (N := N) (w := w) o { input := some fi, content := w.content } rfl
    cases ho : w.openOut o with
    | none =>
      simp only [ho] at hopen
      have h : run X n driverFun [.int .i32 3, .arr [.str p, .str i, .str o]] (Driven.begin w) = .thrown (.exit 1 (cannotOpen o)) := by
        cxg [driverFun_eq, Driven.begin, Int.reduceLT, Int.reduceToNat, args31, args32, hi, hopen, List.nil_append, Option.isSome_none,
          Option.isSome_some, Bool.not_true, Bool.not_false, cannot]
      rw [h]
      simp [Tools.ended, hi, ho]
    | some fo =>
      simp only [ho] at hopen
      simp only [hi, ho]
      have h := work_runs (s := s) (rt := rt) (N := N) (w := w) n 3 [.str p, .str i, .str o] i fi (some fo) (put w.content fo []) rfl rfl
        (by intro f h; cases h; exact put_put _ _ _ _) hn hN
      simp only [openState, Option.isSome_some] at h
      constructor
      · intro k hk
        obtain ⟨V, u, h1, h2⟩ := h.1 k hk
        rw [← h2]
        cxg [driverFun_eq, Driven.begin, Int.reduceLT, Int.reduceToNat, args31, args32, hi, hopen, List.nil_append, Option.isSome_some, Bool.not_true, h1]
        simp [Tools.ended]
      · intro hk
        cxg [driverFun_eq, Driven.begin, Int.reduceLT, Int.reduceToNat, args31, args32, hi, hopen, List.nil_append, Option.isSome_some, Bool.not_true, h.2 hk]

end

section
variable {s : Bool}

theorem less_runs (n : Nat) (a b : Proto.Field) :
    run (lessLib s) n lessFun [.dom (.field a), .dom (.field b)] () =
      .ok (.bool (nameLt a.name b.name), [.dom (.field a), .dom (.field b)], ()) := by
  have h1 : ∀ f : Proto.Field, (lessLib s).base.member (.dom (.field f)) n!"name" () = some (.dom (.name f.name)) := fun _ => rfl
  have h2 : ∀ x y : Bytes, (lessLib s).base.binary n!"<" (.dom (.name x)) (.dom (.name y)) () = some (.bool (nameLt x y), ()) := fun _ _ => rfl
  have h3 : ∀ v : Val LessVal, result (lessLib s).base n!"auto" v = some v := by
    intro v
    have h1 : intType n!"auto" = none := by decide +kernel
    unfold result
    rw [h1]
    rfl
  cxg [lessFun, h1, h2, h3]

theorem what_runs (n : Nat) (e : Problem) (u : Bytes) :
    run (problemLib s) n whatFun [] (e, u) = .ok (.ptr e.message, [], (e, u)) := by
  have h1 : (problemLib s).base.get n!"message" (e, u) = some (.str e.message) := rfl
  have h3 : ∀ v : Val ProblemVal, result (problemLib s).base n!"const char * exception ::" v = some v := by
    intro v
    have h1 : intType n!"const char * exception ::" = none := by decide +kernel
    have h2 : n!"const char * exception ::" ≠ n!"bool" := by decide +kernel
    have h3 : n!"const char * exception ::" ≠ n!"static bool" := by decide +kernel
    have h4 : n!"const char * exception ::" ≠ n!"std :: string" := by decide +kernel
    unfold result
    simp only [h1, h2, h3, h4, or_self, if_false]
  cxg [whatFun, h1, h3]
end
end PG.Cxx.Throw
