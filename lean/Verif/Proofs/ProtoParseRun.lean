import Verif.Proofs.ProtoLexRun
/-
The functions of the parser of schemas (proto3.cc:515-771), executed.
-/
set_option autoImplicit false
namespace PG.Cxx.Throw
open PG.Proto Schema

/-! ### Outcomes -/

theorem ranOf_bind {α β : Type} (o : Out α) (f : α → Out β) : ranOf (o.bind f) = (ranOf o).bind fun a => ranOf (f a) := by
  cases o <;> rfl
theorem Ran.assoc {α β γ : Type} (o : Ran α) (f : α → Ran β) (g : β → Ran γ) : (o.bind f).bind g = o.bind fun a => (f a).bind g := by
  cases o <;> rfl
theorem same {α β : Type} {o : Out α} {f g : α → Ran β} (h : ∀ a, f a = g a) : (ranOf o).bind f = (ranOf o).bind g := by
  cases o <;> first | rfl | exact h _
theorem ranOf_ok {α : Type} (a : α) : ranOf (.ok a) = .ok a := rfl
theorem ranOf_fail {α σ : Type} (tk : Tk σ) (k : Kind) : ranOf (tk.fail k : Out α) = .thrown (.exception (Gen.excText ⟨k, tk.cur.line, tk.cur.col⟩) tk.cur.line tk.cur.col) := rfl

/-! ### Codes of tokens -/

/-- The code with a number. -/
def codeOf (n : Nat) : Option Code :=
  (([.eof, .message, .name, .equal, .repeated, .syntax, .qname, .string, .integer, .enum, .scolon, .package, .lt, .gt, .map, .comma,
    .begin, .end, .option, .true, .false, .lbracket, .rbracket, .optional] : List Code) ++ scalars.map Code.ty).find? fun c => c.num = n
theorem codeOf_num (c : Code) : codeOf c.num = some c := by
  cases c with
  | ty t => cases t <;> rfl
  | _ => rfl
theorem num_eq (c d : Code) : ((c.num : Int) = d.num) = (c = d) := by
  refine propext ⟨fun h => ?_, fun h => by rw [h]⟩
  have h : c.num = d.num := by exact_mod_cast h
  have := congrArg codeOf h
  rw [codeOf_num, codeOf_num] at this
  exact Option.some.inj this
section
variable (c : Code)
theorem num_0 : ((c.num : Int) = 0) = (c = .eof) := num_eq c .eof
theorem num_1 : ((c.num : Int) = 1) = (c = .message) := num_eq c .message
theorem num_2 : ((c.num : Int) = 2) = (c = .name) := num_eq c .name
theorem num_3 : ((c.num : Int) = 3) = (c = .equal) := num_eq c .equal
theorem num_4 : ((c.num : Int) = 4) = (c = .repeated) := num_eq c .repeated
theorem num_22 : ((c.num : Int) = 22) = (c = .syntax) := num_eq c .syntax
theorem num_23 : ((c.num : Int) = 23) = (c = .qname) := num_eq c .qname
theorem num_24 : ((c.num : Int) = 24) = (c = .string) := num_eq c .string
theorem num_25 : ((c.num : Int) = 25) = (c = .integer) := num_eq c .integer
theorem num_26 : ((c.num : Int) = 26) = False := by
  cases c with
  | ty t => cases t <;> decide
  | _ => decide
theorem num_28 : ((c.num : Int) = 28) = (c = .scolon) := num_eq c .scolon
theorem num_29 : ((c.num : Int) = 29) = (c = .package) := num_eq c .package
theorem num_33 : ((c.num : Int) = 33) = (c = .comma) := num_eq c .comma
theorem num_34 : ((c.num : Int) = 34) = (c = .begin) := num_eq c .begin
theorem num_35 : ((c.num : Int) = 35) = (c = .end) := num_eq c .end
theorem num_36 : ((c.num : Int) = 36) = (c = .option) := num_eq c .option
theorem num_37 : ((c.num : Int) = 37) = (c = .true) := num_eq c .true
theorem num_38 : ((c.num : Int) = 38) = (c = .false) := num_eq c .false
theorem num_39 : ((c.num : Int) = 39) = (c = .lbracket) := num_eq c .lbracket
theorem num_40 : ((c.num : Int) = 40) = (c = .rbracket) := num_eq c .rbracket
theorem num_41 : ((c.num : Int) = 41) = (c = .optional) := num_eq c .optional
end
attribute [cxt] num_0 num_1 num_2 num_3 num_4 num_22 num_23 num_24 num_25 num_26 num_28 num_29 num_33 num_34 num_35 num_36 num_37 num_38
  num_39 num_40 num_41

/-! ### The library -/

section
variable {s : Bool} {σ : Type} {nx : σ → Out (Tok × σ)} {N : Nat} (c : Ctx σ) (tk tk' : Tk σ) (t : Tok) (o : OptEntry) (u : Unit) (x : Bytes)
  (m : OptMap) (f : Field) (ti : TypeInfo) (g : Message) (tr : Tree) (ls : List Message) (fs : List Field) (b : Bool) (k : Int)
local notation "B" => parserBase s σ
local notation "L" => parserLib s nx N
theorem par_base : (L).base = B := (rfl)
theorem par_signed : (B).signed = s := (rfl)
theorem par_get (n : Name) : (B).get n u = none := (rfl)
theorem par_true : (B).constant [n!"true"] = some (.bool true) := (rfl)
theorem par_false : (B).constant [n!"false"] = some (.bool false) := (rfl)
theorem par_null : (B).constant [n!"nullptr"] = some (.dom .null) := (rfl)
theorem par_boolean : (B).constant [n!"OptionType", n!"BOOLEAN"] = some (.dom (.optType .boolean)) := (rfl)
theorem par_identifier : (B).constant [n!"OptionType", n!"IDENTIFIER"] = some (.dom (.optType .identifier)) := (rfl)
theorem par_integer : (B).constant [n!"OptionType", n!"INTEGER"] = some (.dom (.optType .integer)) := (rfl)
theorem par_string : (B).constant [n!"OptionType", n!"STRING"] = some (.dom (.optType .string)) := (rfl)
theorem par_cTokens : (B).member (.dom (.ctx c)) n!"tokens" u = some (.dom (.tokens c.tk)) := (rfl)
theorem par_cTree : (B).member (.dom (.ctx c)) n!"tree" u = some (.dom (.tree c.tree)) := (rfl)
theorem par_cPackage : (B).member (.dom (.ctx c)) n!"package" u = some (.str c.tree.package) := (rfl)
theorem par_current : (B).member (.dom (.tokens tk)) n!"current" u = some (.dom (.tok tk.cur)) := (rfl)
theorem par_messages : (B).member (.dom (.tree tr)) n!"messages" u = some (.dom (.messages tr.messages)) := (rfl)
theorem par_tOptions : (B).member (.dom (.tree tr)) n!"options" u = some (.dom (.options tr.options)) := (rfl)
theorem par_code : (B).member (.dom (.tok t)) n!"code" u = some (.int .i32 t.code.num) := (rfl)
theorem par_value : (B).member (.dom (.tok t)) n!"value" u = some (.str t.value) := (rfl)
theorem par_line : (B).member (.dom (.tok t)) n!"line" u = some (.int .i32 t.line) := (rfl)
theorem par_col : (B).member (.dom (.tok t)) n!"column" u = some (.int .i32 t.col) := (rfl)
theorem par_oName : (B).member (.dom (.option o)) n!"name" u = some (.str o.name) := (rfl)
theorem par_oType : (B).member (.dom (.option o)) n!"type" u = some (.dom (.optType o.type)) := (rfl)
theorem par_oValue : (B).member (.dom (.option o)) n!"value" u = some (.str o.value) := (rfl)
theorem par_oLine : (B).member (.dom (.option o)) n!"line" u = some (.int .i32 o.line) := (rfl)
theorem par_fType : (B).member (.dom (.field f)) n!"type" u = some (.dom (.type f.type)) := (rfl)
theorem par_fName : (B).member (.dom (.field f)) n!"name" u = some (.str f.name) := (rfl)
theorem par_fIndex : (B).member (.dom (.field f)) n!"index" u = some (.int .i32 f.index) := (rfl)
theorem par_fOptions : (B).member (.dom (.field f)) n!"options" u = some (.dom (.options f.options)) := (rfl)
theorem par_iName (l : List (Val (PVal σ))) : (B).member (.iter (.dom (.field f) :: l)) n!"name" u = some (.str f.name) := (rfl)
theorem par_iIndex (l : List (Val (PVal σ))) : (B).member (.iter (.dom (.field f) :: l)) n!"index" u = some (.int .i32 f.index) := (rfl)
theorem par_id : (B).member (.dom (.type ti)) n!"id" u = some (.dom (.ftype ti.id)) := (rfl)
theorem par_qname : (B).member (.dom (.type ti)) n!"qname" u = some (.str ti.qname) := (rfl)
theorem par_ref : (B).member (.dom (.type ti)) n!"ref" u = some (.dom (.ref ti.ref)) := (rfl)
theorem par_repeated : (B).member (.dom (.type ti)) n!"repeated" u = some (.bool ti.repeated) := (rfl)
theorem par_optional : (B).member (.dom (.type ti)) n!"optional" u = some (.bool ti.optional) := (rfl)
theorem par_gFields : (B).member (.dom (.msg g)) n!"fields" u = some (.dom (.fields g.fields)) := (rfl)
theorem par_gName : (B).member (.dom (.msg g)) n!"name" u = some (.str g.name) := (rfl)
theorem par_gPackage : (B).member (.dom (.msg g)) n!"package" u = some (.str g.package) := (rfl)
theorem par_gOptions : (B).member (.dom (.msg g)) n!"options" u = some (.dom (.options g.options)) := (rfl)
theorem par_uTokens : (B).update (.dom (.ctx c)) n!"tokens" (.dom (.tokens tk)) = some (.dom (.ctx { c with tk })) := (rfl)
theorem par_uTree : (B).update (.dom (.ctx c)) n!"tree" (.dom (.tree tr)) = some (.dom (.ctx { c with tree := { tr with package := c.tree.package } })) := (rfl)
theorem par_uPackage : (B).update (.dom (.ctx c)) n!"package" (.str x) = some (.dom (.ctx { c with tree := { c.tree with package := x } })) := (rfl)
theorem par_uMessages : (B).update (.dom (.tree tr)) n!"messages" (.dom (.messages ls)) = some (.dom (.tree { tr with messages := ls })) := (rfl)
theorem par_uTOptions : (B).update (.dom (.tree tr)) n!"options" (.dom (.options m)) = some (.dom (.tree { tr with options := m })) := (rfl)
theorem par_uOName : (B).update (.dom (.option o)) n!"name" (.str x) = some (.dom (.option { o with name := x })) := (rfl)
theorem par_uOValue : (B).update (.dom (.option o)) n!"value" (.str x) = some (.dom (.option { o with value := x })) := (rfl)
theorem par_uOType (y : OptType) : (B).update (.dom (.option o)) n!"type" (.dom (.optType y)) = some (.dom (.option { o with type := y })) := (rfl)
theorem par_uOLine : (B).update (.dom (.option o)) n!"line" (.int .i32 k) = some (.dom (.option { o with line := k.toNat })) := (rfl)
theorem par_uFType : (B).update (.dom (.field f)) n!"type" (.dom (.type ti)) = some (.dom (.field { f with type := ti })) := (rfl)
theorem par_uFName : (B).update (.dom (.field f)) n!"name" (.str x) = some (.dom (.field { f with name := x })) := (rfl)
theorem par_uFIndex : (B).update (.dom (.field f)) n!"index" (.int .i32 k) = some (.dom (.field { f with index := k })) := (rfl)
theorem par_uFOptions : (B).update (.dom (.field f)) n!"options" (.dom (.options m)) = some (.dom (.field { f with options := m })) := (rfl)
theorem par_uId (y : FType) : (B).update (.dom (.type ti)) n!"id" (.dom (.ftype y)) = some (.dom (.type { ti with id := y })) := (rfl)
theorem par_uQname : (B).update (.dom (.type ti)) n!"qname" (.str x) = some (.dom (.type { ti with qname := x })) := (rfl)
theorem par_uRef (y : Option Nat) : (B).update (.dom (.type ti)) n!"ref" (.dom (.ref y)) = some (.dom (.type { ti with ref := y })) := (rfl)
theorem par_uRepeated : (B).update (.dom (.type ti)) n!"repeated" (.bool b) = some (.dom (.type { ti with repeated := b })) := (rfl)
theorem par_uOptional : (B).update (.dom (.type ti)) n!"optional" (.bool b) = some (.dom (.type { ti with optional := b })) := (rfl)
theorem par_uGFields : (B).update (.dom (.msg g)) n!"fields" (.dom (.fields fs)) = some (.dom (.msg { g with fields := fs })) := (rfl)
theorem par_uGName : (B).update (.dom (.msg g)) n!"name" (.str x) = some (.dom (.msg { g with name := x })) := (rfl)
theorem par_uGPackage : (B).update (.dom (.msg g)) n!"package" (.str x) = some (.dom (.msg { g with package := x })) := (rfl)
theorem par_uGOptions : (B).update (.dom (.msg g)) n!"options" (.dom (.options m)) = some (.dom (.msg { g with options := m })) := (rfl)
theorem par_uStar (h : Message) : (B).update (.dom (.msg g)) n!"*" (.dom (.msg h)) = some (.dom (.msg h)) := (rfl)
theorem par_star : (B).unary n!"*" (.dom (.msg g)) u = some (.dom (.msg g)) := (rfl)
theorem par_aNull (y : Option Nat) : (B).assign (.dom (.ref y)) (.dom .null) = some (.dom (.ref none)) := (rfl)
theorem par_aShared (y : Option Nat) (i : Nat) : (B).assign (.dom (.ref y)) (.dom (.shared i g)) = some (.dom (.ref (some i))) := (rfl)
theorem par_aOptType (y z : OptType) : (B).assign (.dom (.optType y)) (.dom (.optType z)) = some (.dom (.optType z)) := (rfl)
theorem par_aFType (y z : FType) : (B).assign (.dom (.ftype y)) (.dom (.ftype z)) = some (.dom (.ftype z)) := (rfl)
theorem par_nField : initial B n!"Field" none u = some (.dom (.field newField)) := (rfl)
theorem par_nOption : initial B n!"OptionEntry" none u = some (.dom (.option newOption)) := (rfl)
theorem par_iOption : initial B n!"OptionEntry" (some (.dom (.option o))) u = some (.dom (.option o)) := (rfl)
theorem par_iTok : initial B n!"Token" (some (.dom (.tok t))) u = some (.dom (.tok t)) := (rfl)
theorem par_iMsg : (B).init n!"auto" (some (.dom (.msg g))) u = some (.dom (.msg g)) := (rfl)
theorem par_exception (args : List (Val (PVal σ))) : (L).function [n!"exception"] u args =
    Ran.of ((exceptionOf args).map fun e => (.dom (.exc e), [], ())) := (rfl)
theorem par_throw (e : Thrown) : (L).function [n!"throw"] u [.dom (.exc e)] = .thrown e := (rfl)
theorem par_shared : (L).function [n!"std::make_shared", n!"Message"] u [] = .ok (.dom (.msg newMessage), [], ()) := (rfl)
theorem par_strtol : (L).function [n!"strtol"] u [.ptr x, .dom .null, .int .i32 10] = .ok (.int .i64 (strtol x), [], ()) := (rfl)
theorem par_parseOption : (L).function [n!"parseOption"] u [.dom (.ctx c)] =
    (ranOf (parseOption nx c.tk)).bind fun r => .ok (.dom (.option r.1), [some (.dom (.ctx { c with tk := r.2 }))], ()) := (rfl)
theorem par_parseMessage : (L).function [n!"parseMessage"] u [.dom (.ctx c)] =
    (ranOf (parseMessage nx N c.tree c.tk)).bind fun r => .ok (.void, [some (.dom (.ctx ⟨r.2, r.1⟩))], ()) := (rfl)
theorem par_parsePackage : (L).function [n!"parsePackage"] u [.dom (.ctx c)] =
    (ranOf (parsePackage nx c.tree c.tk)).bind fun r => .ok (.void, [some (.dom (.ctx ⟨r.2, r.1⟩))], ()) := (rfl)
theorem par_parseSyntax : (L).function [n!"parseSyntax"] u [.dom (.ctx c)] =
    (ranOf (parseSyntax nx c.tk)).bind fun tk => .ok (.void, [some (.dom (.ctx { c with tk := tk }))], ()) := (rfl)
theorem par_parseFieldOptions : (L).function [n!"parseFieldOptions"] u [.dom (.ctx c), .dom (.options m)] =
    (ranOf (parseFieldOptions nx N m c.tk)).bind fun r =>
      .ok (.void, [some (.dom (.ctx { c with tk := r.2 })), some (.dom (.options r.1))], ()) := (rfl)
theorem par_parseStandardOption : (L).function [n!"parseStandardOption"] u [.dom (.ctx c), .dom (.options m)] =
    (ranOf (parseStandardOption nx m c.tk)).bind fun r =>
      .ok (.void, [some (.dom (.ctx { c with tk := r.2 })), some (.dom (.options r.1))], ()) := (rfl)
theorem par_findMessage : (L).function [n!"findMessage"] u [.dom (.ctx c), .str x] = .ok (.dom (found c.tree.messages x), [some (.dom (.ctx c)), none], ()) := (rfl)
theorem par_parseField : (L).function [n!"parseField"] u [.dom (.ctx c), .dom (.msg g)] =
    (ranOf (parseField nx N c.tree.messages g c.tk)).bind fun r =>
      .ok (.void, [some (.dom (.ctx { c with tk := r.2 })), some (.dom (.msg r.1))], ()) := (rfl)
theorem par_next : (L).method n!"next" u [.dom (.tokens tk)] =
    (ranOf (tk.next nx)).bind fun tk => .ok (.dom (.tok tk.cur), [some (.dom (.tokens tk))], ()) := (rfl)
theorem par_unget : (L).method n!"unget" u [.dom (.tokens tk)] =
    (ranOf tk.unget).bind fun tk => .ok (.void, [some (.dom (.tokens tk))], ()) := (rfl)
theorem par_mBegin : (L).method n!"begin" u [.dom (.messages ls)] = .ok (.iter (ls.mapIdx fun i m => .dom (.shared i m)), [], ()) := (rfl)
theorem par_mEnd : (L).method n!"end" u [.dom (.messages ls)] = .ok (.iter [], [], ()) := (rfl)
theorem par_mPush : (L).method n!"push_back" u [.dom (.messages ls), .dom (.msg g)] = .ok (.void, [some (.dom (.messages (ls ++ [g])))], ()) := (rfl)
theorem par_fBegin : (L).method n!"begin" u [.dom (.fields fs)] = .ok (.iter (fs.map fun f => .dom (.field f)), [], ()) := (rfl)
theorem par_fEnd : (L).method n!"end" u [.dom (.fields fs)] = .ok (.iter [], [], ()) := (rfl)
theorem par_fPush : (L).method n!"push_back" u [.dom (.fields fs), .dom (.field f)] = .ok (.void, [some (.dom (.fields (fs ++ [f])))], ()) := (rfl)
theorem par_qualified (i : Nat) : (L).method n!"qualifiedName" u [.dom (.shared i g)] = .ok (.str g.qualifiedName, [], ()) := (rfl)
theorem par_entry : (L).method n!"[]=" u [.dom (.options m), .str x, .dom (.option o)] = .ok (.void, [some (.dom (.options (m.set x o)))], ()) := (rfl)
theorem par_cast (t : IT) : (B).cast n!"FieldType" (.int t k) = (ftypeOf k).map fun x => .dom (.ftype x) := (rfl)
theorem par_rVoid (v : Val (PVal σ)) : result B n!"static void" v = some v := (rfl)
theorem par_rOption (v : Val (PVal σ)) : result B n!"static OptionEntry" v = some v := (rfl)
theorem par_rMessage (v : Val (PVal σ)) : result B n!"static std :: shared_ptr < Message >" v = some v := (rfl)
end
attribute [cxt] par_base par_signed par_get par_true par_false par_null par_boolean par_identifier par_integer par_string par_cTokens par_cTree
  par_cPackage par_current par_messages par_tOptions par_code par_value par_line par_col par_oName par_oType par_oValue par_oLine par_fType
  par_fName par_fIndex par_fOptions par_iName par_iIndex par_id par_qname par_ref par_repeated par_optional par_gFields par_gName par_gPackage
  par_gOptions par_uTokens par_uTree par_uPackage par_uMessages par_uTOptions par_uOName par_uOValue par_uOType par_uOLine par_uFType par_uFName
  par_uFIndex par_uFOptions par_uId par_uQname par_uRef par_uRepeated par_uOptional par_uGFields par_uGName par_uGPackage par_uGOptions par_uStar par_star par_aNull
  par_aShared par_aOptType par_aFType par_nField par_nOption par_iOption par_iTok par_iMsg par_exception par_throw par_shared par_strtol
  par_parseOption par_parseMessage par_parsePackage par_parseSyntax par_parseFieldOptions par_parseStandardOption par_findMessage
  par_parseField par_next par_unget par_mBegin par_mEnd par_mPush par_fBegin par_fEnd par_fPush par_qualified par_entry par_cast par_rVoid par_rOption par_rMessage

variable {s : Bool} {σ : Type} {nx : σ → Out (Tok × σ)} {N : Nat}

/-- Execution, with the outcomes of the functions of the model. -/
macro "cxp" "[" ls:Lean.Parser.Tactic.simpLemma,* "]" : tactic =>
  `(tactic| cxt [ranOf_bind, Ran.assoc, ranOf_ok, ranOf_fail, ne_eq, not_true_eq_false, not_false_eq_true, decide_true, decide_false, Bool.not_true, Bool.not_false, Bool.or_self, Bool.or_true, Bool.true_or, Bool.or_false, Bool.false_or, Bool.and_self, Bool.and_true, Bool.true_and, Bool.and_false, Bool.false_and, true_and, and_true, false_and, and_false, or_true, true_or, or_false, false_or, $ls,*])

theorem syntax_runs (n : Nat) (c : Ctx σ) : run (parserLib s nx N) n syntaxFun [.dom (.ctx c)] () =
    (ranOf (parseSyntax nx c.tk)).bind fun tk => .ok (.void, [.dom (.ctx { c with tk })], ()) := by
  unfold parseSyntax
  cxp [syntaxFun]
  refine same fun t1 => ?_
  by_cases h1 : t1.cur.code = .equal
  · cxp [eq_true h1]
    refine same fun t2 => ?_
    by_cases h2 : t2.cur.code = .string
    · cxp [eq_true h2]
      refine same fun t3 => ?_
      by_cases h3 : t3.cur.code = .scolon
      · by_cases h4 : t2.cur.value = b!"proto3"
        · cxp [eq_true h3, eq_true h4]
        · cxp [eq_true h3, eq_false h4]
          rfl
      · cxp [eq_false h3]
        rfl
    · cxp [eq_false h2]
      rfl
  · cxp [eq_false h1]
    rfl

theorem package_runs (n : Nat) (c : Ctx σ) : run (parserLib s nx N) n packageFun [.dom (.ctx c)] () =
    (ranOf (parsePackage nx c.tree c.tk)).bind fun r => .ok (.void, [.dom (.ctx ⟨r.2, r.1⟩)], ()) := by
  unfold parsePackage
  cxp [packageFun]
  refine same fun t1 => ?_
  by_cases h1 : t1.cur.code = .name ∨ t1.cur.code = .qname
  · rw [if_pos h1]
    have h1' : (decide (t1.cur.code = .name) || decide (t1.cur.code = .qname)) = true := by simpa using h1
    cxp [h1']
    refine same fun t2 => ?_
    by_cases h2 : t2.cur.code = .scolon
    · cxp [eq_true h2]
    · cxp [eq_false h2]
      rfl
  · rw [if_neg h1]
    have h1' : (decide (t1.cur.code = .name) || decide (t1.cur.code = .qname)) = false := by simpa using h1
    cxp [h1']
    rfl

theorem option_runs (n : Nat) (c : Ctx σ) : run (parserLib s nx N) n optionFun [.dom (.ctx c)] () =
    (ranOf (parseOption nx c.tk)).bind fun r => .ok (.dom (.option r.1), [.dom (.ctx { c with tk := r.2 })], ()) := by
  unfold parseOption
  cxp [optionFun]
  refine same fun t1 => ?_
  by_cases h1 : t1.cur.code ≠ .name ∧ t1.cur.code ≠ .qname
  · rw [if_pos h1]
    cxp [eq_false h1.1, eq_false h1.2]
    rfl
  · rw [if_neg h1]
    have h1' : (decide (¬ t1.cur.code = .name) && decide (¬ t1.cur.code = .qname)) = false := by simpa using h1
    cxp [h1']
    refine same fun t2 => ?_
    by_cases h2 : t2.cur.code = .equal
    · cxp [eq_true h2]
      refine same fun t3 => ?_
      generalize hc : t3.cur.code = code
      cases code with
      | ty t => cxp [hc, optType]; cases t <;> rfl
      | _ => cxp [hc, optType, newOption] <;> rfl
    · cxp [eq_false h2]
      rfl

theorem standard_runs (n : Nat) (c : Ctx σ) (m : OptMap) : run (parserLib s nx N) n standardFun [.dom (.ctx c), .dom (.options m)] () =
    (ranOf (parseStandardOption nx m c.tk)).bind fun r => .ok (.void, [.dom (.ctx { c with tk := r.2 }), .dom (.options r.1)], ()) := by
  unfold parseStandardOption
  cxp [standardFun]
  refine same fun r => ?_
  cxp []
  refine same fun t2 => ?_
  by_cases h2 : t2.cur.code = .scolon
  · cxp [eq_true h2]
  · cxp [eq_false h2]
    rfl

/-! ### `parseFieldOptions` -/

theorem options_loop {β : Type} (g n : Nat) (c : Ctx σ) (m : OptMap) (K : Flow (PVal σ) × St (PVal σ) Unit → Ran β)
    (G : Ctx σ → OptMap → Ran β)
    (hK : ∀ c m, K (.next, ⟨[[], [(n!"ctx", .dom (.ctx c)), (n!"entries", .dom (.options m))]], ()⟩) =
      (ranOf c.tk.unget).bind fun tk => G { c with tk } m) :
    (iterate (test (parserLib s nx N) (.name n!"true")) (exec (parserLib s nx N) g optionsFunBody1) .ok n
      ⟨[[], [(n!"ctx", .dom (.ctx c)), (n!"entries", .dom (.options m))]], ()⟩).bind K =
    (ranOf (parseFieldOptions nx n m c.tk)).bind fun r => G { c with tk := r.2 } r.1 := by
  induction n generalizing c m with
  | zero => rfl
  | succ n ih =>
    rw [parseFieldOptions, iterate]
    cxp [optionsFunBody1]
    refine same fun t1 => ?_
    by_cases h1 : t1.cur.code = .rbracket
    · cxp [eq_true h1, hK]
      exact same fun _ => rfl
    · cxp [eq_false h1]
      refine same fun t2 => ?_
      cxp []
      refine same fun r => ?_
      cxp []
      refine same fun t3 => ?_
      by_cases h2 : t3.cur.code = .comma
      · cxp [eq_true h2]
        exact ih ⟨t3, c.tree⟩ _
      · cxp [eq_false h2]
        refine same fun t4 => ?_
        cxp []
        exact ih ⟨t4, c.tree⟩ _

theorem options_runs (n : Nat) (c : Ctx σ) (m : OptMap) : run (parserLib s nx N) n optionsFun [.dom (.ctx c), .dom (.options m)] () =
    (ranOf (parseFieldOptions nx n m c.tk)).bind fun r => .ok (.void, [.dom (.ctx { c with tk := r.2 }), .dom (.options r.1)], ()) := by
  cxp [optionsFun]
  refine options_loop n n c m _ (fun c m => .ok ((.void, [.dom (.ctx c), .dom (.options m)], ()) : Val (PVal σ) × List (Val (PVal σ)) × Unit)) ?_
  intro c m
  cxp []
  refine same fun t => ?_
  cxp []

/-! ### `findMessage` -/

theorem find_loop {β : Type} (g n : Nat) (c : Ctx σ) (q : Bytes) (ix : Nat → Nat) (rest : List Message) (hn : rest.length < n)
    (K : Flow (PVal σ) × St (PVal σ) Unit → Ran β) (G : PVal σ → Ran β)
    (h1 : ∀ it, K (.next, ⟨[[(n!"it", it)], [], [(n!"ctx", .dom (.ctx c)), (n!"name", .str q)]], ()⟩) = G .null)
    (h2 : ∀ j m it, K (.ret (.dom (.shared j m)), ⟨[[(n!"it", it)], [], [(n!"ctx", .dom (.ctx c)), (n!"name", .str q)]], ()⟩) = G (.shared j m)) :
    (iterate (test (parserLib s nx N) (.binary n!"!=" (.name n!"it") (.call (.member (.member (.member (.name n!"ctx") n!"tree") n!"messages") n!"end") .nil)))
      (exec (parserLib s nx N) g findFunBody1) (perform (parserLib s nx N) (.incr n!"++" true (.name n!"it"))) n
      ⟨[[(n!"it", .iter (rest.mapIdx fun k m => .dom (.shared (ix k) m)))], [], [(n!"ctx", .dom (.ctx c)), (n!"name", .str q)]], ()⟩).bind K =
    G (match findMessage rest q with
      | none => .null
      | some k =>
        match rest[k]? with
        | some m => .shared (ix k) m
        | none => .null) := by
  induction rest generalizing ix n with
  | nil =>
    obtain ⟨n, rfl⟩ : ∃ m, n = m + 1 := ⟨n - 1, by simp at hn; omega⟩
    rw [iterate]
    cxp [List.mapIdx_nil, h1]
    rfl
  | cons m rest ih =>
    obtain ⟨n, rfl⟩ : ∃ m, n = m + 1 := ⟨n - 1, by simp at hn; omega⟩
    have ht : test (parserLib s nx N) (.binary n!"!=" (.name n!"it") (.call (.member (.member (.member (.name n!"ctx") n!"tree") n!"messages") n!"end") .nil))
        ⟨[[(n!"it", .iter ((m :: rest).mapIdx fun k m => .dom (.shared (ix k) m)))], [], [(n!"ctx", .dom (.ctx c)), (n!"name", .str q)]], ()⟩ =
        .ok (true, ⟨[[(n!"it", .iter ((m :: rest).mapIdx fun k m => .dom (.shared (ix k) m)))], [], [(n!"ctx", .dom (.ctx c)), (n!"name", .str q)]], ()⟩) := by
      cxp [List.mapIdx_cons]
    rw [findMessage]
    by_cases h : m.qualifiedName = q
    · rw [iterate_ret ht (v := .dom (.shared (ix 0) m))
        (s2 := ⟨[[(n!"it", .iter ((m :: rest).mapIdx fun k m => .dom (.shared (ix k) m)))], [], [(n!"ctx", .dom (.ctx c)), (n!"name", .str q)]], ()⟩),
        Ran.bind_ok, h2, if_pos h]
      · rfl
      · cxp [List.mapIdx_cons, findFunBody1, eq_true h]
    · rw [iterate_next ht
        (s2 := ⟨[[(n!"it", .iter ((m :: rest).mapIdx fun k m => .dom (.shared (ix k) m)))], [], [(n!"ctx", .dom (.ctx c)), (n!"name", .str q)]], ()⟩)
        (s3 := ⟨[[(n!"it", .iter (rest.mapIdx fun k m => .dom (.shared (ix (k + 1)) m)))], [], [(n!"ctx", .dom (.ctx c)), (n!"name", .str q)]], ()⟩),
        ih n (fun k => ix (k + 1)) (by simp at hn; omega), if_neg h]
      · cases findMessage rest q <;> rfl
      · cxp [List.mapIdx_cons, findFunBody1, eq_false h]
      · cxp [List.mapIdx_cons]

theorem find_runs (n : Nat) (c : Ctx σ) (q : Bytes) (hn : c.tree.messages.length < n) : run (parserLib s nx N) n findFun [.dom (.ctx c), .str q] () =
    .ok (.dom (found c.tree.messages q), [.dom (.ctx c), .str q], ()) := by
  cxp [findFun]
  refine (find_loop n n c q (fun k => k) c.tree.messages hn _ (fun d => .ok ((.dom d, [.dom (.ctx c), .str q], ()) : Val (PVal σ) × List (Val (PVal σ)) × Unit)) ?_ ?_).trans ?_
  · intro it
    cxp [findFun]
  · intro j m it
    cxp [findFun]
  · rfl

/-! ### `parseMessage` -/

theorem message_loop {β : Type} (g n : Nat) (c : Ctx σ) (m : Message) (k : Int) (K : Flow (PVal σ) × St (PVal σ) Unit → Ran β)
    (G : Ctx σ → Message → Ran β)
    (hK : ∀ c m, K (.next, ⟨[[(n!"message", .dom (.msg m))], [(n!"code", .int .i32 k)], [], [(n!"ctx", .dom (.ctx c))]], ()⟩) = G c m) :
    (iterate (test (parserLib s nx N) (.binary n!"!=" (.member (.call (.member (.member (.name n!"ctx") n!"tokens") n!"next") .nil) n!"code")
      (.int .i32 0))) (exec (parserLib s nx N) g messageFunBody1) .ok n
      ⟨[[(n!"message", .dom (.msg m))], [(n!"code", .int .i32 k)], [], [(n!"ctx", .dom (.ctx c))]], ()⟩).bind K =
    (ranOf (parseBody nx N c.tree.messages n m c.tk)).bind fun r => G { c with tk := r.2 } r.1 := by
  induction n generalizing c m with
  | zero => rfl
  | succ n ih =>
    rw [parseBody, iterate]
    cxp [messageFunBody1]
    refine same fun t1 => ?_
    by_cases h0 : t1.cur.code = .eof
    · cxp [eq_true h0, hK]
    by_cases h1 : t1.cur.code = .end
    · cxp [messageFunBody1, eq_false h0, eq_true h1, hK]
    by_cases h2 : t1.cur.code = .option
    · cxp [messageFunBody1, eq_false h0, eq_false h1, eq_true h2]
      refine same fun r => ?_
      cxp []
      exact ih ⟨r.2, c.tree⟩ _
    · cxp [messageFunBody1, eq_false h0, eq_false h1, eq_false h2]
      refine same fun r => ?_
      cxp []
      exact ih ⟨r.2, c.tree⟩ _

theorem message_runs (n : Nat) (c : Ctx σ) : run (parserLib s nx n) n messageFun [.dom (.ctx c)] () =
    (ranOf (parseMessage nx n c.tree c.tk)).bind fun r => .ok (.void, [.dom (.ctx ⟨r.2, r.1⟩)], ()) := by
  unfold parseMessage isNameCode
  by_cases h0 : c.tk.cur.code = .message
  · cxp [messageFun, eq_true h0]
    refine same fun t1 => ?_
    by_cases h1 : (decide (t1.cur.code = .name) || decide (t1.cur.code = .message) || decide (t1.cur.code = .package)) = true
    · have h1' : (t1.cur.code == .name || t1.cur.code == .message || t1.cur.code == .package) = true := h1
      cxp [h1, h1']
      refine same fun t2 => ?_
      by_cases h2 : t2.cur.code = .begin
      · cxp [eq_true h2]
        refine (message_loop n n ⟨t2, c.tree⟩ ⟨[], t1.cur.value, c.tree.package, []⟩ t1.cur.code.num _
          (fun c m => .ok ((.void, [.dom (.ctx ⟨c.tk, { c.tree with messages := c.tree.messages ++ [m] }⟩)], ()) : Val (PVal σ) × List (Val (PVal σ)) × Unit)) ?_).trans ?_
        · intro c m
          cxp [messageFun]
        · refine same fun r => ?_
          rfl
      · cxp [eq_false h2]
        rfl
    · have h1' : (t1.cur.code == .name || t1.cur.code == .message || t1.cur.code == .package) = false := Bool.eq_false_iff.mpr h1
      cxp [Bool.eq_false_iff.mpr h1, h1']
      rfl
  · cxp [messageFun, eq_false h0]
    rfl

/-! ### `parseProto` -/

theorem proto_loop {β : Type} (g n : Nat) (c : Ctx σ) (K : Flow (PVal σ) × St (PVal σ) Unit → Ran β)
    (G : Tree → Ran β) (hK : ∀ c, K (.next, ⟨[[], [(n!"ctx", .dom (.ctx c))]], ()⟩) = G c.tree) :
    (repeated (test (parserLib s nx N) (.binary n!"!=" (.member (.member (.member (.name n!"ctx") n!"tokens") n!"current") n!"code") (.int .i32 0)))
      (exec (parserLib s nx N) g protoFunBody1) n ⟨[[], [(n!"ctx", .dom (.ctx c))]], ()⟩).bind K =
    (ranOf (parseProto nx N n c.tree c.tk)).bind G := by
  induction n generalizing c with
  | zero => rfl
  | succ n ih =>
    rw [parseProto, repeated]
    cxp [protoFunBody1]
    refine same fun t1 => ?_
    unfold parseItem
    by_cases h0 : t1.cur.code = .eof
    · cxp [h0, reduceCtorEq, hK]
      done
    by_cases h1 : t1.cur.code = .message
    · cxp [h1, reduceCtorEq]
      refine same fun r => ?_
      by_cases h : r.2.cur.code = .eof
      · cxp [eq_true h, hK]
      · cxp [eq_false h]
        exact ih ⟨r.2, r.1⟩
    by_cases h2 : t1.cur.code = .package
    · cxp [h2, reduceCtorEq]
      refine same fun r => ?_
      by_cases h : r.2.cur.code = .eof
      · cxp [eq_true h, hK]
      · cxp [eq_false h]
        exact ih ⟨r.2, r.1⟩
    by_cases h3 : t1.cur.code = .syntax
    · cxp [h3, reduceCtorEq]
      refine same fun r => ?_
      by_cases h : r.cur.code = .eof
      · cxp [eq_true h, hK]
      · cxp [eq_false h]
        exact ih ⟨r, c.tree⟩
    by_cases h4 : t1.cur.code = .option
    · cxp [h4, reduceCtorEq]
      refine same fun r => ?_
      by_cases h : r.2.cur.code = .eof
      · cxp [eq_true h, hK]
      · cxp [eq_false h]
        exact ih ⟨r.2, { c.tree with options := r.1 }⟩
    · cxp [eq_false h0, eq_false h1, eq_false h2, eq_false h3, eq_false h4]
      rfl

theorem proto_runs (n : Nat) (c : Ctx σ) : ((run (parserLib s nx n) n protoFun [.dom (.ctx c)] ()).bind fun r =>
      match r.2.1 with
      | [.dom (.ctx c)] => .ok c.tree
      | _ => .undef) = ranOf (parseProto nx n n c.tree c.tk) := by
  cxp [protoFun]
  refine (proto_loop n n c _ (fun t => .ok t) ?_).trans ?_
  · intro c
    cxp [protoFun]
  · cases parseProto nx n n c.tree c.tk <;> rfl

/-! ### `parseField` -/

theorem convert_int (v : Int) : IT.convert s .i32 .i64 v = (CInt.cast .i32 v).val := by
  have : (IKind.lo .i32) = -2147483648 := rfl
  simp only [IT.convert, reduceCtorEq, ↓reduceIte, IT.wrap, CInt.cast, this, IKind.bits]
  omega

theorem par_intType : intType n!"FieldType" = none := rfl

theorem findMessage_lt (l : List Message) (q : Bytes) : ∀ i, findMessage l q = some i → i < l.length := by
  induction l with
  | nil => intro i h; cases h
  | cons m l ih =>
    intro i h
    rw [findMessage] at h
    split at h
    · cases h; simp
    · cases hf : findMessage l q with
      | none => rw [hf] at h; cases h
      | some j => rw [hf] at h; cases h; simpa using ih j hf

theorem found_ref (l : List Message) (q : Bytes) (y : Option Nat) :
    (parserBase s σ).assign (.dom (.ref y)) (.dom (found l q)) = some (.dom (.ref (findMessage l q))) := by
  unfold found
  cases h : findMessage l q with
  | none => rfl
  | some i =>
    have := findMessage_lt l q i h
    simp only [List.getElem?_eq_getElem this]
    rfl
attribute [cxt] par_intType found_ref

theorem scalar_range (c : Code) : (decide (6 ≤ (c.num : Int)) && decide ((c.num : Int) ≤ 20)) = match c with | .ty _ => true | _ => false := by
  cases c with
  | ty t => cases t <;> decide
  | _ => decide

theorem ftypeOf_num (t : Scalar) : ftypeOf ((Code.ty t).num : Int) = some (.scalar t) := by
  cases t <;> decide

/-- The statement of `parseField` that reads a label. -/
def fieldLabel : Stmt := .ite (.binary n!"==" (.member
  (.member (.member (.name n!"ctx") n!"tokens") n!"current") n!"code") (.int .i32 4)) (.block (.cons (.expr (.assign (.member
  (.member (.name n!"field") n!"type") n!"repeated") (.name n!"true"))) (.cons (.expr (.call (.member (.member (.name
  n!"ctx") n!"tokens") n!"next") .nil)) .nil))) (.ite (.binary n!"==" (.member (.member (.member (.name n!"ctx") n!"tokens")
  n!"current") n!"code") (.int .i32 41)) (.block (.cons (.expr (.assign (.member (.member (.name n!"field") n!"type")
  n!"optional") (.name n!"true"))) (.cons (.expr (.call (.member (.member (.name n!"ctx") n!"tokens") n!"next") .nil))
  .nil))) .skip)

/-- The statement of `parseField` that reads a type. -/
def fieldType : Stmt := .ite (.binary n!"&&" (.binary n!">=" (.member (.member (.member (.name n!"ctx") n!"tokens")
  n!"current") n!"code") (.int .i32 6)) (.binary n!"<=" (.member (.member (.member (.name n!"ctx") n!"tokens") n!"current")
  n!"code") (.int .i32 20))) (.expr (.assign (.member (.member (.name n!"field") n!"type") n!"id") (.cast n!"FieldType"
  (.member (.member (.member (.name n!"ctx") n!"tokens") n!"current") n!"code")))) (.ite (.binary n!"||" (.binary n!"=="
  (.member (.member (.member (.name n!"ctx") n!"tokens") n!"current") n!"code") (.int .i32 2)) (.binary n!"==" (.member
  (.member (.member (.name n!"ctx") n!"tokens") n!"current") n!"code") (.int .i32 23))) (.block (.cons (.expr (.assign
  (.member (.member (.name n!"field") n!"type") n!"id") (.cast n!"FieldType" (.int .i32 21)))) (.cons (.ite (.unary n!"!"
  (.call (.member (.member (.name n!"message") n!"package") n!"empty") .nil)) (.block (.cons (.expr (.update n!"+" (.member
  (.member (.name n!"field") n!"type") n!"qname") (.member (.name n!"message") n!"package"))) (.cons (.expr (.update n!"+"
  (.member (.member (.name n!"field") n!"type") n!"qname") (.chr 46))) .nil))) .skip) (.cons (.expr (.update n!"+" (.member
  (.member (.name n!"field") n!"type") n!"qname") (.member (.member (.member (.name n!"ctx") n!"tokens") n!"current")
  n!"value"))) (.cons (.expr (.assign (.member (.member (.name n!"field") n!"type") n!"ref") (.call (.name n!"findMessage")
  (.cons (.name n!"ctx") (.cons (.member (.member (.name n!"field") n!"type") n!"qname") .nil))))) .nil))))) (.expr (.call
  (.name n!"throw") (.cons (.call (.name n!"exception") (.cons (.str [77, 105, 115, 115, 105, 110, 103, 32, 102, 105, 101,
  108, 100, 32, 116, 121, 112, 101]) (.cons (.member (.member (.member (.name n!"ctx") n!"tokens") n!"current") n!"line")
  (.cons (.member (.member (.member (.name n!"ctx") n!"tokens") n!"current") n!"column") .nil)))) .nil))))

/-- The statements after those. -/
def fieldTail : Stmts :=
  match Schema.fieldFun.body with
  | .cons _ (.cons _ (.cons _ r)) => r
  | _ => .nil

theorem field_body : Schema.fieldFun = ⟨n!"static void", n!"parseField", [(n!"ProtoContext &", n!"ctx"), (n!"Message &", n!"message")],
    .cons (.decl n!"Field" n!"field" none) (.cons fieldLabel (.cons fieldType fieldTail))⟩ := rfl

/-- The variables of `parseField`. -/
def fieldVars (f : Field) (c : Ctx σ) (m : Message) : List (List (Name × Val (PVal σ))) :=
  [[(n!"field", .dom (.field f))], [(n!"ctx", .dom (.ctx c)), (n!"message", .dom (.msg m))]]

theorem field_type (n : Nat) (r o : Bool) (c : Ctx σ) (m : Message) :
    exec (parserLib s nx N) n fieldType ⟨fieldVars ⟨⟨.scalar .double, [], none, r, o⟩, [], 0, []⟩ c m, ()⟩ =
    (ranOf (parseType c.tree.messages m.package r o c.tk)).bind fun t => .ok (.next, ⟨fieldVars ⟨t, [], 0, []⟩ c m, ()⟩) := by
  unfold parseType
  have hr := scalar_range c.tk.cur.code
  generalize hc : c.tk.cur.code = code at hr
  have other : code ≠ .name → code ≠ .qname → (decide (6 ≤ (code.num : Int)) && decide ((code.num : Int) ≤ 20)) = false →
      exec (parserLib s nx N) n fieldType ⟨fieldVars ⟨⟨.scalar .double, [], none, r, o⟩, [], 0, []⟩ c m, ()⟩ =
      (ranOf (c.tk.fail .missingType)).bind fun t => .ok (.next, ⟨fieldVars ⟨t, [], 0, []⟩ c m, ()⟩) := by
    intro h1 h2 hr
    cxp [fieldType, fieldVars, hc, hr, h1, h2]
    rfl
  have named : code = .name ∨ code = .qname → (decide (6 ≤ (code.num : Int)) && decide ((code.num : Int) ≤ 20)) = false →
      exec (parserLib s nx N) n fieldType ⟨fieldVars ⟨⟨.scalar .double, [], none, r, o⟩, [], 0, []⟩ c m, ()⟩ =
      .ok (.next, ⟨fieldVars ⟨⟨.message, (if m.package ≠ [] then m.package ++ [46] else []) ++ c.tk.cur.value, findMessage c.tree.messages ((if m.package ≠ [] then m.package ++ [46] else []) ++ c.tk.cur.value), r, o⟩, [], 0, []⟩ c m, ()⟩) := by
    intro h1 hr
    have h1' : (decide (code = .name) || decide (code = .qname)) = true := by simpa using h1
    have h21 : ftypeOf 21 = some .message := rfl
    by_cases hp : m.package = []
    · have e : (if m.package ≠ [] then m.package ++ [46] else []) = ([] : Bytes) := if_neg (by simp [hp])
      cxp [fieldType, fieldVars, hc, hr, h1', h21, hp, e, List.nil_append, List.isEmpty_nil]
    · have e : (if m.package ≠ [] then m.package ++ [46] else []) = m.package ++ [46] := if_pos hp
      have e' : m.package.isEmpty = false := by simpa using hp
      cxp [fieldType, fieldVars, hc, hr, h1', h21, eq_false hp, e, e', List.nil_append]
      rfl
  cases code with
  | ty t =>
    cxp [fieldType, fieldVars, hc, hr, ftypeOf_num]
  | name => rw [named (.inl rfl) hr]; rfl
  | qname => rw [named (.inr rfl) hr]; rfl
  | _ => exact other (by decide) (by decide) hr

theorem same_loop {β : Type} (g n : Nat) (f : Field) (k : Val (PVal σ)) (c : Ctx σ) (m : Message) (rest : List Field) (hn : rest.length < n)
    (K : Flow (PVal σ) × St (PVal σ) Unit → Ran β) (G : Ran β)
    (h1 : ∀ it, K (.next, ⟨[[(n!"it", it)], [(n!"code", k), (n!"field", .dom (.field f))], [(n!"ctx", .dom (.ctx c)), (n!"message", .dom (.msg m))]], ()⟩) = G) :
    (iterate (test (parserLib s nx N) (.binary n!"!=" (.name n!"it") (.call (.member (.member (.name n!"message") n!"fields") n!"end") .nil)))
      (exec (parserLib s nx N) g Schema.fieldFunBody1) (perform (parserLib s nx N) (.incr n!"++" false (.name n!"it"))) n
      ⟨[[(n!"it", .iter (rest.map fun f => .dom (.field f)))], [(n!"code", k), (n!"field", .dom (.field f))], [(n!"ctx", .dom (.ctx c)), (n!"message", .dom (.msg m))]], ()⟩).bind K =
    if rest.any (fun h => h.index == f.index) then
      .thrown (.exception (Gen.excText ⟨.sameIndex (holder rest f.index) f.name, c.tk.cur.line, c.tk.cur.col⟩) c.tk.cur.line c.tk.cur.col)
    else G := by
  induction rest generalizing n with
  | nil =>
    obtain ⟨n, rfl⟩ : ∃ m, n = m + 1 := ⟨n - 1, by simp at hn; omega⟩
    rw [iterate]
    cxp [List.map_nil, h1, List.any_nil]
  | cons h rest ih =>
    obtain ⟨n, rfl⟩ : ∃ m, n = m + 1 := ⟨n - 1, by simp at hn; omega⟩
    have ht : test (parserLib s nx N) (.binary n!"!=" (.name n!"it") (.call (.member (.member (.name n!"message") n!"fields") n!"end") .nil))
      ⟨[[(n!"it", .iter ((h :: rest).map fun f => .dom (.field f)))], [(n!"code", k), (n!"field", .dom (.field f))], [(n!"ctx", .dom (.ctx c)), (n!"message", .dom (.msg m))]], ()⟩ =
      .ok (true, ⟨[[(n!"it", .iter ((h :: rest).map fun f => .dom (.field f)))], [(n!"code", k), (n!"field", .dom (.field f))], [(n!"ctx", .dom (.ctx c)), (n!"message", .dom (.msg m))]], ()⟩) := by
      cxp [List.map_cons]
    by_cases hi : h.index = f.index
    · rw [iterate_throw ht (e := .exception (Gen.excText ⟨.sameIndex h.name f.name, c.tk.cur.line, c.tk.cur.col⟩) c.tk.cur.line c.tk.cur.col)]
      · simp [hi, holder, Ran.bind]
      · cxp [List.map_cons, Schema.fieldFunBody1, eq_true hi]
        simp [Gen.excText, List.append_assoc]
    · rw [iterate_next ht
        (s2 := ⟨[[(n!"it", .iter ((h :: rest).map fun f => .dom (.field f)))], [(n!"code", k), (n!"field", .dom (.field f))], [(n!"ctx", .dom (.ctx c)), (n!"message", .dom (.msg m))]], ()⟩)
        (s3 := ⟨[[(n!"it", .iter (rest.map fun f => .dom (.field f)))], [(n!"code", k), (n!"field", .dom (.field f))], [(n!"ctx", .dom (.ctx c)), (n!"message", .dom (.msg m))]], ()⟩),
        ih n (by simp at hn; omega)]
      · simp [hi, holder]
      · cxp [List.map_cons, Schema.fieldFunBody1, eq_false hi]
      · cxp [List.map_cons]

/-- `parseField` after the label and the type. -/
def fieldRest (nx : σ → Out (Tok × σ)) (N : Nat) (type : TypeInfo) (m : Message) (tk : Tk σ) : Out (Message × Tk σ) :=
  (tk.next nx).bind fun tk =>
  if !isNameCode tk.cur.code then tk.fail .missingName else
  let name := tk.cur.value
  (tk.next nx).bind fun tk =>
  if tk.cur.code ≠ .equal then tk.fail .expectedEqual else
  (tk.next nx).bind fun tk =>
  if tk.cur.code ≠ .integer then tk.fail .missingIndex else
  let index := fieldIndex tk.cur.value
  if badIndex index then tk.fail .invalidIndex else
  (tk.next nx).bind fun tk =>
  (parseBrackets nx N tk).bind fun (options, tk) =>
  if tk.cur.code ≠ .scolon then tk.fail .expectedSemicolon else
  if m.fields.any (fun f => f.index == index) then tk.fail (.sameIndex (holder m.fields index) name) else
  .ok ({ m with fields := m.fields ++ [{ type, name, index, options }] }, tk)

theorem field_tail {β : Type} (n : Nat) (t : TypeInfo) (c : Ctx σ) (m : Message) (hn : m.fields.length < n)
    (K : Flow (PVal σ) × St (PVal σ) Unit → Ran β) (G : Ctx σ → Message → Ran β)
    (hK : ∀ k f c m, K (.next, ⟨[[(n!"code", k), (n!"field", .dom (.field f))], [(n!"ctx", .dom (.ctx c)), (n!"message", .dom (.msg m))]], ()⟩) = G c m) :
    (execAll (parserLib s nx N) n fieldTail ⟨fieldVars ⟨t, [], 0, []⟩ c m, ()⟩).bind K =
    (ranOf (fieldRest nx N t m c.tk)).bind fun r => G { c with tk := r.2 } r.1 := by
  unfold fieldRest isNameCode fieldTail Schema.fieldFun fieldVars
  dsimp only
  cxp []
  refine same fun t1 => ?_
  by_cases h1 : t1.cur.code = .name ∨ t1.cur.code = .message ∨ t1.cur.code = .package
  · have h1' : (!(t1.cur.code == .name || t1.cur.code == .message || t1.cur.code == .package)) = false := by
      rcases h1 with h | h | h <;> simp [h]
    have h1'' : ((decide (¬ t1.cur.code = .name) && decide (¬ t1.cur.code = .message)) && decide (¬ t1.cur.code = .package)) = false := by
      rcases h1 with h | h | h <;> simp [h]
    cxp [h1', h1'']
    refine same fun t2 => ?_
    by_cases h2 : t2.cur.code = .equal
    · cxp [eq_true h2]
      refine same fun t3 => ?_
      by_cases h3 : t3.cur.code = .integer
      · have hb : badIndex (fieldIndex t3.cur.value) = (decide ((CInt.cast IKind.i32 (strtol t3.cur.value)).val ≤ 0) ||
            decide (536870911 ≤ (CInt.cast IKind.i32 (strtol t3.cur.value)).val) ||
            decide ((CInt.cast IKind.i32 (strtol t3.cur.value)).val = 19999) ||
            decide ((CInt.cast IKind.i32 (strtol t3.cur.value)).val = 19000)) := rfl
        cases h4 : badIndex (fieldIndex t3.cur.value) with
        | true =>
          cxp [eq_true h3, convert_int, ← hb, h4]
          rfl
        | false =>
          cxp [eq_true h3, convert_int, ← hb, h4]
          refine same fun t4 => ?_
          unfold parseBrackets
          by_cases h5 : t4.cur.code = .lbracket
          · cxp [eq_true h5]
            refine same fun r => ?_
            cxp []
            refine same fun t5 => ?_
            by_cases h6 : t5.cur.code = .rbracket
            · cxp [eq_true h6]
              refine same fun t6 => ?_
              by_cases h7 : t6.cur.code = .scolon
              · cxp [eq_true h7]
                refine (same_loop n n ⟨t, t1.cur.value, fieldIndex t3.cur.value, r.1⟩ (.int .i32 t1.cur.code.num) ⟨t6, c.tree⟩ m m.fields hn _
                  (G ⟨t6, c.tree⟩ { m with fields := m.fields ++ [⟨t, t1.cur.value, fieldIndex t3.cur.value, r.1⟩] }) ?_).trans ?_
                · intro it
                  cxp [hK]
                · by_cases h8 : (m.fields.any fun f => f.index == fieldIndex t3.cur.value) = true
                  · simp only [h8, ↓reduceIte]
                    rfl
                  · simp only [h8, Bool.false_eq_true, ↓reduceIte]
                    rfl
              · cxp [eq_false h7]
                rfl
            · cxp [eq_false h6]
              rfl
          · cxp [eq_false h5]
            by_cases h7 : t4.cur.code = .scolon
            · cxp [eq_true h7]
              refine (same_loop n n ⟨t, t1.cur.value, fieldIndex t3.cur.value, []⟩ (.int .i32 t1.cur.code.num) ⟨t4, c.tree⟩ m m.fields hn _
                (G ⟨t4, c.tree⟩ { m with fields := m.fields ++ [⟨t, t1.cur.value, fieldIndex t3.cur.value, []⟩] }) ?_).trans ?_
              · intro it
                cxp [hK]
              · by_cases h8 : (m.fields.any fun f => f.index == fieldIndex t3.cur.value) = true
                · simp only [h8, ↓reduceIte]
                  rfl
                · simp only [h8, Bool.false_eq_true, ↓reduceIte]
                  rfl
            · cxp [eq_false h7]
              rfl
      · cxp [eq_false h3]
        rfl
    · cxp [eq_false h2]
      rfl
  · obtain ⟨a, b⟩ := not_or.mp h1
    obtain ⟨b, d⟩ := not_or.mp b
    have h1' : (!(t1.cur.code == .name || t1.cur.code == .message || t1.cur.code == .package)) = true := by
      simp [a, b, d]
    cxp [h1', eq_false a, eq_false b, eq_false d]
    rfl

theorem field_runs (n : Nat) (c : Ctx σ) (m : Message) (hn : m.fields.length < n) : run (parserLib s nx N) n Schema.fieldFun [.dom (.ctx c), .dom (.msg m)] () =
    (ranOf (parseField nx N c.tree.messages m c.tk)).bind fun r => .ok (.void, [.dom (.ctx { c with tk := r.2 }), .dom (.msg r.1)], ()) := by
  have ft := fun r o tk => field_type (s := s) (nx := nx) (N := N) n r o ⟨tk, c.tree⟩ m
  simp only [fieldVars] at ft
  rw [field_body]
  unfold parseField parseLabel
  by_cases h1 : c.tk.cur.code = .repeated
  · cxp [fieldLabel, eq_true h1, newField]
    refine same fun t1 => ?_
    cxp [ft]
    refine same fun t => ?_
    cxp []
    refine (field_tail n t ⟨t1, c.tree⟩ m hn _ (fun c m => .ok ((.void, [.dom (.ctx c), .dom (.msg m)], ()) : Val (PVal σ) × List (Val (PVal σ)) × Unit)) ?_).trans ?_
    · intro k f c m
      cxp []
    · unfold fieldRest
      cxp []
  · by_cases h2 : c.tk.cur.code = .optional
    · cxp [fieldLabel, eq_false h1, eq_true h2, newField]
      refine same fun t1 => ?_
      cxp [ft]
      refine same fun t => ?_
      cxp []
      refine (field_tail n t ⟨t1, c.tree⟩ m hn _ (fun c m => .ok ((.void, [.dom (.ctx c), .dom (.msg m)], ()) : Val (PVal σ) × List (Val (PVal σ)) × Unit)) ?_).trans ?_
      · intro k f c m
        cxp []
      · unfold fieldRest
        cxp []
    · cxp [fieldLabel, eq_false h1, eq_false h2, newField, ft]
      refine same fun t => ?_
      cxp []
      refine (field_tail n t c m hn _ (fun c m => .ok ((.void, [.dom (.ctx c), .dom (.msg m)], ()) : Val (PVal σ) × List (Val (PVal σ)) × Unit)) ?_).trans ?_
      · intro k f c m
        cxp []
      · unfold fieldRest
        cxp []

/-! ### `Message::qualifiedName` -/

theorem qual_get1 (m : Message) : (messageLib s).base.get n!"package" m = some (.str m.package) := (rfl)
theorem qual_get2 (m : Message) : (messageLib s).base.get n!"name" m = some (.str m.name) := (rfl)
theorem qual_result (v : Val Empty) : result (messageLib s).base n!"std :: string Message ::" v = some v := (rfl)
theorem qual_signed : (messageLib s).base.signed = s := (rfl)

theorem qual_runs (n : Nat) (m : Message) : run (messageLib s) n qualFun [] m = .ok (.str m.qualifiedName, [], m) := by
  unfold Message.qualifiedName
  by_cases h : m.package = []
  · cxp [qualFun, qual_get1, qual_get2, qual_result, qual_signed, h, List.isEmpty_nil]
  · have h' : m.package.isEmpty = false := by simpa using h
    cxp [qualFun, qual_get1, qual_get2, qual_result, qual_signed, h', eq_false h]
    simp only [List.append_assoc]
    rfl

end PG.Cxx.Throw
