import Verif.Spec.CxxProto
import Verif.Spec.CxxGen
import Verif.Model.Debug
import Verif.Model.Main
/-
The library used by exception.cc, by `main_usage` and `main_error` of main.cc, and by the output operators of proto3.cc.
-/
set_option autoImplicit false
namespace PG.Cxx.Tools
open PG.Proto PG.Gen

/-! ### Output operators -/

/-- The objects: the stream, `std::endl`, and what is printed.  A pointer is its address. -/
inductive ShowVal
  | out
  | endl
  | token (t : Tok)
  | field (f : Proto.Field)
  | type (t : TypeInfo)
  | fields (l : List Proto.Field)
  | message (m : Message)
  | tree (t : Tree)
  | messages (n : Nat)
  | pointer (a : Nat)

/-- What `out << v` writes (ISO/IEC 14882:2011, 27.7.3.6 and 20.7.2.2.11); `shown` is the operator for fields. -/
def shownAs (shown : Proto.Field → Option Bytes) : Val ShowVal → Option Bytes
  | .str x => some x
  | .int .char c => some [IT.toByte c]
  | .int .i32 v => some (decInt v)
  | .dom .endl => some b!"\n"
  | .dom (.pointer a) => some (ptrText a)
  | .dom (.field f) => shown f
  | _ => none

/-- Members (include/protogen/proto3.hh:54-104, proto3.cc:187-196). -/
def shownMember : Val ShowVal → Name → Option (Val ShowVal)
  | .dom (.token t), n =>
    if n = n!"code" then some (.int .i32 t.code.num)
    else if n = n!"value" then some (.str t.value)
    else if n = n!"line" then some (.int .i32 t.line)
    else if n = n!"column" then some (.int .i32 t.col)
    else none
  | .dom (.field f), n =>
    if n = n!"type" then some (.dom (.type f.type))
    else if n = n!"name" then some (.str f.name)
    else if n = n!"index" then some (.int .i32 f.index)
    else none
  | .dom (.type t), n =>
    if n = n!"repeated" then some (.bool t.repeated)
    else if n = n!"id" then some (.int .i32 (match t.id with | .scalar t => (t.num : Int) | .message => 21))
    else if n = n!"qname" then some (.str t.qname)
    else none
  | .dom (.message m), n =>
    if n = n!"name" then some (.str m.name)
    else if n = n!"fields" then some (.dom (.fields m.fields))
    else none
  | .dom (.tree t), n => if n = n!"messages" then some (.dom (.messages t.messages.length)) else none
  | _, _ => none

/-- The library: the state is what has been written; `addr i` is the address of the message at position `i`. -/
def showLib (s : Bool) (shown : Proto.Field → Option Bytes) (addr : Nat → Nat) : ThrowLib ShowVal Bytes where
  base := { Schema.plain s with
    constant := fun p =>
      if p = [n!"TOKENS"] then some (.arr (TOKENS.map .str))
      else if p = [n!"TYPES"] then some (.arr (TYPES.map .str))
      else if p = [n!"std", n!"endl"] then some (.dom .endl)
      else none
    member := fun v n _ => shownMember v n
    binary := fun o a b st =>
      match a with
      | .dom .out => if o = n!"<<" then (shownAs shown b).map fun x => (.dom .out, st ++ x) else none
      | _ => none
    init := fun n v _ => if n = n!"std :: ostream &" then v else none }
  function := fun _ _ _ => .undef
  method := fun m st args =>
    match args with
    | [.dom (.fields l)] =>
      if m = n!"begin" then .ok (.iter (l.map fun f => .dom (.field f)), [], st)
      else if m = n!"end" then .ok (.iter [], [], st)
      else .undef
    | [.dom (.messages k)] =>
      if m = n!"begin" then .ok (.iter ((List.range k).map fun i => .dom (.pointer (addr i))), [], st)
      else if m = n!"end" then .ok (.iter [], [], st)
      else .undef
    | _ => .undef
  caught := fun _ _ _ => none

/-! ### `exception` -/

/-- An object of `protogen::exception` (include/protogen/exception.hh:27-40). -/
structure Problem where
  message : Bytes := []
  line : Int := 0
  column : Int := 0

/-- The object that is made or asked, and a stream. -/
inductive ProblemVal
  | this (e : Problem)
  | stream

/-- The library for exception.cc: the object, and what is in the only stream. -/
def problemLib (s : Bool) : ThrowLib ProblemVal (Problem × Bytes) where
  base := { Schema.plain s with
    get := fun n st =>
      if n = n!"this" then some (.dom (.this st.1))
      else if n = n!"message" then some (.str st.1.message)
      else if n = n!"line" then some (.int .i32 st.1.line)
      else if n = n!"column" then some (.int .i32 st.1.column)
      else none
    set := fun n v st =>
      match v with
      | .dom (.this e) => if n = n!"this" then some (e, st.2) else none
      | _ => none
    member := fun v n _ =>
      match v with
      | .dom (.this e) =>
        if n = n!"message" then some (.str e.message)
        else if n = n!"line" then some (.int .i32 e.line)
        else if n = n!"column" then some (.int .i32 e.column)
        else none
      | _ => none
    update := fun o n v =>
      match o, v with
      | .dom (.this e), .str x => if n = n!"message" then some (.dom (.this { e with message := x })) else none
      | .dom (.this e), .int .i32 k =>
        if n = n!"line" then some (.dom (.this { e with line := k }))
        else if n = n!"column" then some (.dom (.this { e with column := k }))
        else none
      | _, _ => none
    binary := fun o a b st =>
      if o = n!"<<" then
        match a, b with
        | .dom .stream, .str x => some (.dom .stream, (st.1, st.2 ++ x))
        | .dom .stream, .int .char c => some (.dom .stream, (st.1, st.2 ++ [IT.toByte c]))
        | .dom .stream, .int .i32 v => some (.dom .stream, (st.1, st.2 ++ decInt v))
        | _, _ => none
      else none
    init := fun n v _ => if n = n!"std :: stringstream" then (if v.isNone then some (.dom .stream) else none) else none }
  function := fun _ _ _ => .undef
  method := fun m st args =>
    match args with
    | [.dom .stream] => if m = n!"str" then .ok (.str st.2, [], st) else .undef
    | [.str x] => if m = n!"c_str" then .ok (.ptr x, [], st) else .undef
    | _ => .undef
  caught := fun _ _ _ => none

/-! ### `main_usage` and `main_error` -/

/-- The objects. -/
inductive EndVal
  | err
  | endl

/-- The library: what has been written to `std::cerr`, and the argument of `exit`, which is the last that happens. -/
def endLib (s : Bool) : ThrowLib EndVal (Bytes × Option Int) where
  base := { Schema.plain s with
    constant := fun p =>
      if p = [n!"std", n!"cerr"] then some (.dom .err)
      else if p = [n!"std", n!"endl"] then some (.dom .endl)
      else if p = [n!"PROTOGEN_VERSION"] then some (.str version)
      else if p = [n!"EXIT_FAILURE"] then some (.int .i32 1)
      else none
    binary := fun o a b st =>
      if o = n!"<<" ∧ st.2 = none then
        match a, b with
        | .dom .err, .str x => some (.dom .err, (st.1 ++ x, st.2))
        | .dom .err, .dom .endl => some (.dom .err, (st.1 ++ b!"\n", st.2))
        | _, _ => none
      else none }
  function := fun p st args =>
    match args with
    | [.int .i32 k] => if p = [n!"exit"] ∧ st.2 = none then .ok (.void, [], (st.1, some k)) else .undef
    | _ => .undef
  method := fun _ _ _ => .undef
  caught := fun _ _ _ => none

end PG.Cxx.Tools
