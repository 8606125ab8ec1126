import Verif.Proofs.CppParse
import Verif.Proofs.GenMeaning
import Verif.Props.Labels
/-
What the functions of a message do, as they have been read from its text.
-/
set_option autoImplicit false
namespace PG.Cpp
open PG.Gen PG.Proto

/-! ### The functions of the members -/

section
variable (n : Nat) (p : Params) (t : Ty) (x : t.Den) (s : Run) (v : t.Den) (w : t.Den)

theorem static_read : domStatic n p (.dom (.obj t x)) b!"read" s [.dom .ctx, .dom (.obj t v)] =
    some (.dom (.rc (t.read n s.tz v).1), [none, some (.dom (.obj t (t.read n s.tz v).2.2))], { s with tz := (t.read n s.tz v).2.1 }) := by
  unfold domStatic
  simp only
  rw [if_pos trivial, if_pos trivial]

theorem static_write : domStatic n p (.dom (.obj t x)) b!"write" s [.dom .ctx, .dom (.obj t v)] =
    some (.dom (.rc (t.write p v s.err).1), [], { s with out := s.out ++ (t.write p v s.err).2.1, err := (t.write p v s.err).2.2 }) := by
  unfold domStatic
  simp only
  rw [if_neg (by decide), if_pos trivial, if_pos trivial]

theorem static_empty : domStatic n p (.dom (.obj t x)) b!"empty" s [.dom (.obj t v)] = some (.bool (t.empty v), [], s) := by
  unfold domStatic
  simp only
  rw [if_neg (by decide), if_neg (by decide), if_pos trivial, if_pos trivial]

theorem static_clear : domStatic n p (.dom (.obj t x)) b!"clear" s [.dom (.obj t v)] =
    some (.void, [some (.dom (.obj t (t.clear v)))], s) := by
  unfold domStatic
  simp only
  rw [if_neg (by decide), if_neg (by decide), if_neg (by decide), if_pos trivial, if_pos trivial]

theorem static_equal : domStatic n p (.dom (.obj t x)) b!"equal" s [.dom (.obj t v), .dom (.obj t w)] =
    some (.bool (t.equal v w), [], s) := by
  unfold domStatic
  simp only
  rw [if_neg (by decide), if_neg (by decide), if_neg (by decide), if_neg (by decide), if_pos trivial, dif_pos trivial, if_pos trivial]

theorem static_swap : domStatic n p (.dom (.obj t x)) b!"swap" s [.dom (.obj t v), .dom (.obj t w)] =
    some (.void, [some (.dom (.obj t (t.swap v w).1)), some (.dom (.obj t (t.swap v w).2))], s) := by
  unfold domStatic
  simp only
  rw [if_neg (by decide), if_neg (by decide), if_neg (by decide), if_neg (by decide), if_neg (by decide), if_pos trivial, dif_pos trivial,
    if_pos trivial]

end

/-! ### Members -/

/-- The names of members. -/
def memberNames : Fields → List Bytes
  | .nil => []
  | .cons f _ rest => f.name :: memberNames rest

/-- Some of the members of a structure, the others being fixed. -/
structure Plug (fs rest : Fields) where
  to : rest.Den → fs.Den
  get : ∀ w n, n ∈ memberNames rest → getField fs (to w) n = getField rest w n
  set : ∀ w n x, n ∈ memberNames rest → setField fs (to w) n x = (setField rest w n x).map to

/-- All of them. -/
def Plug.all (fs : Fields) : Plug fs fs := ⟨id, fun _ _ _ => rfl, fun w n x _ => by rw [Option.map_id]; rfl⟩

/-- All but the first. -/
def Plug.tail {fs rest : Fields} {f : FInfo} {t : Ty} (p : Plug fs (.cons f t rest)) (v : t.Den) (h : f.name ∉ memberNames rest) :
    Plug fs rest where
  to w := p.to (v, w)
  get w n hn := by
    rw [p.get (v, w) n (List.mem_cons_of_mem _ hn), getField, if_neg]
    rintro rfl
    exact h hn
  set w n x hn := by
    rw [p.set (v, w) n x (List.mem_cons_of_mem _ hn), setField.eq_def]
    simp only
    rw [if_neg]
    · cases setField rest w n x <;> rfl
    · rintro rfl
      exact h hn

theorem Plug.head {fs rest : Fields} {f : FInfo} {t : Ty} (p : Plug fs (.cons f t rest)) (w : (Fields.cons f t rest).Den) :
    getField fs (p.to w) f.name = some (.obj t w.1) := by
  rw [p.get w _ (List.mem_cons_self ..), getField, if_pos rfl]

theorem Plug.head_set {fs rest : Fields} {f : FInfo} {t : Ty} (p : Plug fs (.cons f t rest)) (w : (Fields.cons f t rest).Den) (x : t.Den) :
    setField fs (p.to w) f.name (.obj t x) = some (p.to (x, w.2)) := by
  rw [p.set w _ _ (List.mem_cons_self ..), setField, if_pos rfl]
  simp

/-! ### Expressions -/

variable {n : Nat} {q : Params} {fn : Bytes → Callee Dom Run}

theorem eval_field {o : Bool} {fs : Fields} {V : fs.Den} {v name : Bytes} {d : Dom} {st : St Dom Run}
    (hv : getVar v st.vars = some (.dom (.obj (.msg o fs) V))) (hd : getField fs V name = some d) :
    eval (library n q fn) (fieldOf v name) st = some (.dom d, st) := by
  unfold fieldOf
  rw [eval, eval, hv]
  show Option.map _ (Option.map _ (getField fs V name)) = _
  rw [hd]
  rfl

theorem eval_json {e : Expr} {f : Bytes} {args : List Expr} {st : St Dom Run} {x : Val Dom} {vs : List (Val Dom)}
    {r : Val Dom × List (Option (Val Dom)) × Run} {vars : List (Bytes × Val Dom)}
    (he : eval (library n q fn) e st = some (x, st)) (ha : evalAll (library n q fn) args st = some (vs, st))
    (hf : domStatic n q x f st.lib vs = some r) (hs : storeAll (library n q fn) args r.2.1 st.vars = some vars) :
    eval (library n q fn) (jsonCall e f args) st = some (r.1, ⟨vars, r.2.2⟩) := by
  unfold jsonCall
  rw [eval, he, Option.bind_some, ha, Option.bind_some]
  unfold apply
  show Option.bind (domStatic n q x f st.lib vs) _ = _
  rw [hf, Option.bind_some, hs]
  rfl

theorem evalAll_one {L : Lib Dom Run} {a : Expr} {x : Val Dom} {st : St Dom Run} (ha : eval L a st = some (x, st)) :
    evalAll L [a] st = some ([x], st) := by
  rw [evalAll, ha, Option.bind_some, evalAll]
  rfl

theorem evalAll_two {L : Lib Dom Run} {a b : Expr} {x y : Val Dom} {st : St Dom Run} (ha : eval L a st = some (x, st))
    (hb : eval L b st = some (y, st)) : evalAll L [a, b] st = some ([x, y], st) := by
  rw [evalAll, ha, Option.bind_some, evalAll_one hb]
  rfl

theorem eval_name {L : Lib Dom Run} {v : Bytes} {x : Val Dom} {st : St Dom Run} (h : getVar v st.vars = some x) :
    eval L (.name v) st = some (x, st) := by
  rw [eval, h]
  rfl

theorem store_field {o : Bool} {fs : Fields} {V W : fs.Den} {v name : Bytes} {d : Dom} {vars vars' : List (Bytes × Val Dom)}
    (hv : getVar v vars = some (.dom (.obj (.msg o fs) V))) (hd : setField fs V name d = some W)
    (hs : setVar v (.dom (.obj (.msg o fs) W)) vars = some vars') :
    store (library n q fn) vars (fieldOf v name) (.dom d) = some vars' := by
  unfold fieldOf
  rw [store, read, hv]
  show Option.bind (Option.map _ (setField fs V name d)) _ = _
  rw [hd]
  show store _ _ _ _ = _
  rw [store, hs]

/-! ### Fields -/

/-- Fields as they appear in the functions of a message. -/
inductive Matches (ctx : Ctx) : List Field → Fields → Prop
  | nil : Matches ctx [] .nil
  | cons {f : Field} {t : Ty} {l : List Field} {fs : Fields} (h : Matches ctx l fs) : Matches ctx (f :: l) (.cons (fieldInfo ctx f) t fs)

theorem fieldInfo_name (ctx : Ctx) (f : Field) : (fieldInfo ctx f).name = f.name := by
  unfold fieldInfo
  split <;> rfl

theorem fieldInfo_transient (ctx : Ctx) (f : Field) : (fieldInfo ctx f).transient = !Persistent f := by
  unfold fieldInfo
  cases Persistent f <;> rfl

theorem Matches.names {ctx : Ctx} {l : List Field} {fs : Fields} (h : Matches ctx l fs) : memberNames fs = l.map (·.name) := by
  induction h with
  | nil => rfl
  | cons h ih => rw [memberNames, ih, fieldInfo_name, List.map_cons]

theorem Matches.fresh {ctx : Ctx} {f : Field} {l : List Field} {fs : Fields} (h : Matches ctx l fs) (hn : ((f :: l).map (·.name)).Nodup) :
    (fieldInfo ctx f).name ∉ memberNames fs := by
  rw [h.names, fieldInfo_name]
  rw [List.map_cons, List.nodup_cons] at hn
  exact hn.1

section
variable {ctx : Ctx} {o : Bool} {FS : Fields}

/-! ### `empty` and `equal` -/

theorem empties {l : List Field} {fs : Fields} (h : Matches ctx l fs) (hn : (l.map (·.name)).Nodup) {st : St Dom Run} (p : Plug FS fs) (w : fs.Den)
    (hv : getVar b!"value" st.vars = some (.dom (.obj (.msg o FS) (p.to w)))) (ht : getVar b!"true" st.vars = none) (a : Expr) (x : Bool)
    (ha : eval (library n q fn) a st = some (.bool x, st)) :
    eval (library n q fn) (conjunction a (l.map emptyExpr)) st = some (.bool (x && fs.empty w), st) := by
  induction h generalizing a x with
  | nil =>
    rw [List.map_nil, conjunction, eval, ha, Option.bind_some, if_pos rfl, Fields.empty]
    cases x
    · rfl
    · simp only
      rw [eval, ht]
      rfl
  | @cons f t l fs h ih =>
    have hf := p.head w
    rw [fieldInfo_name] at hf
    have he := eval_field (n := n) (q := q) (fn := fn) hv hf
    have hc : eval (library n q fn) (emptyExpr f) st = some (.bool (t.empty w.1), st) :=
      eval_json he (evalAll_one he) (static_empty ..) rfl
    rw [List.map_cons, conjunction, Fields.empty, ← Bool.and_assoc]
    refine ih (List.nodup_cons.mp hn).2 (p.tail w.1 (h.fresh hn)) w.2 hv _ _ ?_
    rw [eval, ha, Option.bind_some, if_pos rfl]
    cases x
    · rfl
    · simp only
      rw [hc]
      rfl

theorem equals {l : List Field} {fs : Fields} (h : Matches ctx l fs) (hn : (l.map (·.name)).Nodup) {st : St Dom Run} (p p' : Plug FS fs)
    (w w' : fs.Den) (hv : getVar b!"a" st.vars = some (.dom (.obj (.msg o FS) (p.to w))))
    (hv' : getVar b!"b" st.vars = some (.dom (.obj (.msg o FS) (p'.to w')))) (ht : getVar b!"true" st.vars = none) (a : Expr) (x : Bool)
    (ha : eval (library n q fn) a st = some (.bool x, st)) :
    eval (library n q fn) (conjunction a (l.map equalExpr)) st = some (.bool (x && fs.equal w w'), st) := by
  induction h generalizing a x with
  | nil =>
    rw [List.map_nil, conjunction, eval, ha, Option.bind_some, if_pos rfl, Fields.equal]
    cases x
    · rfl
    · simp only
      rw [eval, ht]
      rfl
  | @cons f t l fs h ih =>
    have hf := p.head w
    have hf' := p'.head w'
    rw [fieldInfo_name] at hf hf'
    have he := eval_field (n := n) (q := q) (fn := fn) hv hf
    have he' := eval_field (n := n) (q := q) (fn := fn) hv' hf'
    have hc : eval (library n q fn) (equalExpr f) st = some (.bool (t.equal w.1 w'.1), st) :=
      eval_json he (evalAll_two he he') (static_equal ..) rfl
    rw [List.map_cons, conjunction, Fields.equal, ← Bool.and_assoc]
    refine ih (List.nodup_cons.mp hn).2 (p.tail w.1 (h.fresh hn)) (p'.tail w'.1 (h.fresh hn)) w.2 w'.2 hv hv' _ _ ?_
    rw [eval, ha, Option.bind_some, if_pos rfl]
    cases x
    · rfl
    · simp only
      rw [hc]
      rfl

/-! ### `clear` and `swap` -/

theorem clears {l : List Field} {fs : Fields} (h : Matches ctx l fs) (hn : (l.map (·.name)).Nodup) (p : Plug FS fs) (w : fs.Den) (s : Run) :
    execAll (library n q fn) (l.map clearStmt) ⟨[(b!"value", .dom (.obj (.msg o FS) (p.to w)))], s⟩ =
      some (.next, ⟨[(b!"value", .dom (.obj (.msg o FS) (p.to (fs.clear w))))], s⟩) := by
  induction h with
  | nil => rw [List.map_nil, execAll]
  | @cons f t l fs h ih =>
    have hf := p.head w
    have hs := p.head_set w (t.clear w.1)
    rw [fieldInfo_name] at hf hs
    have he := eval_field (n := n) (q := q) (fn := fn) (o := o) (v := b!"value")
      (st := ⟨[(b!"value", .dom (.obj (.msg o FS) (p.to w)))], s⟩) rfl hf
    have hc := eval_json (f := b!"clear") he (evalAll_one he) (static_clear ..)
      (by rw [storeAll, store_field rfl hs rfl, Option.bind_some, storeAll])
    rw [List.map_cons, execAll, clearStmt, exec, hc]
    simp only [Option.map_some, Option.bind_some]
    exact ih (List.nodup_cons.mp hn).2 (p.tail (t.clear w.1) (h.fresh hn)) w.2

theorem swaps {l : List Field} {fs : Fields} (h : Matches ctx l fs) (hn : (l.map (·.name)).Nodup) (p p' : Plug FS fs) (w w' : fs.Den) (s : Run) :
    execAll (library n q fn) (l.map swapStmt)
        ⟨[(b!"a", .dom (.obj (.msg o FS) (p.to w))), (b!"b", .dom (.obj (.msg o FS) (p'.to w')))], s⟩ =
      some (.next, ⟨[(b!"a", .dom (.obj (.msg o FS) (p.to (fs.swap w w').1))), (b!"b", .dom (.obj (.msg o FS) (p'.to (fs.swap w w').2)))], s⟩) := by
  induction h with
  | nil => rw [List.map_nil, execAll]
  | @cons f t l fs h ih =>
    have hf := p.head w
    have hs := p.head_set w (t.swap w.1 w'.1).1
    have hf' := p'.head w'
    have hs' := p'.head_set w' (t.swap w.1 w'.1).2
    rw [fieldInfo_name] at hf hs hf' hs'
    have he := eval_field (n := n) (q := q) (fn := fn) (o := o) (v := b!"a")
      (st := ⟨[(b!"a", .dom (.obj (.msg o FS) (p.to w))), (b!"b", .dom (.obj (.msg o FS) (p'.to w')))], s⟩) rfl hf
    have he' := eval_field (n := n) (q := q) (fn := fn) (o := o) (v := b!"b")
      (st := ⟨[(b!"a", .dom (.obj (.msg o FS) (p.to w))), (b!"b", .dom (.obj (.msg o FS) (p'.to w')))], s⟩) rfl hf'
    have hc := eval_json (f := b!"swap") he (evalAll_two he he') (static_swap ..)
      (by rw [storeAll, store_field rfl hs rfl, Option.bind_some, storeAll, store_field rfl hs' rfl, Option.bind_some, storeAll])
    rw [List.map_cons, execAll, swapStmt, exec, hc]
    simp only [Option.map_some, Option.bind_some]
    exact ih (List.nodup_cons.mp hn).2 (p.tail (t.swap w.1 w'.1).1 (h.fresh hn)) (p'.tail (t.swap w.1 w'.1).2 (h.fresh hn)) w.2 w'.2

/-! ### `write` -/

/-- The variables of `write`. -/
abbrev writeVars (first : Bool) (v : Val Dom) : List (Bytes × Val Dom) :=
  [(b!"f", .bool first), (b!"ctx", .dom .ctx), (b!"value", v)]

theorem eval_stream {v : Val Dom} {first : Bool} {s : Run} :
    eval (library n q fn) stream ⟨writeVars first v, s⟩ = some (.dom .os, ⟨writeVars first v, s⟩) := by rfl

theorem eval_label {name : Bytes} (hu : Usable ctx name) (st : St Dom Run) :
    eval (library n q functions0) (labelExpr ctx name) st = some (.str name, st) := by
  have h := hu.1
  unfold labelText at h
  unfold labelExpr keyText
  cases ho : ctx.obfuscate
  · rw [ho] at h
    simp only [Bool.false_eq_true, if_false] at h ⊢
    rw [labelValue_quoted] at h
    rw [eval, h]
    rfl
  · rw [ho] at h
    simp only [if_true] at h ⊢
    rw [labelValue_revealed] at h
    obtain ⟨s, h1, h2⟩ := Option.map_eq_some_iff.mp h
    have ha : evalAll (library n q functions0) [.str (obfuscateText name)] st = some ([.str s], st) := evalAll_one (by rw [eval, h1]; rfl)
    rw [eval, ha, Option.bind_some]
    show apply _ (functions0 b!"reveal") _ [.str s] st = _
    have : functions0 b!"reveal" st.lib [.str s] = some (.str (reveal s), [], st.lib) := rfl
    rw [apply, this, h2]
    rfl

theorem eval_out {a b : Expr} {x : Bytes} {st : St Dom Run} {vars : List (Bytes × Val Dom)} {s : Run}
    (ha : eval (library n q fn) a st = some (.dom .os, ⟨vars, s⟩)) (hb : eval (library n q fn) b ⟨vars, s⟩ = some (.str x, ⟨vars, s⟩)) :
    eval (library n q fn) (.binary b!"<<" a b) st = some (.dom .os, ⟨vars, { s with out := s.out ++ x }⟩) := by
  rw [eval, ha, Option.bind_some, if_neg (by decide), if_neg (by decide)]
  simp only
  rw [hb]
  rfl

/-- The output of a field. -/
theorem write_field {f : Field} {t : Ty} {V : FS.Den} {v : t.Den} (hg : getField FS V f.name = some (.obj t v))
    (hu : Usable ctx (jsonNameIn ctx f)) (first : Bool) (s : Run) :
    exec (library n q functions0) (writeStmt ctx f) ⟨writeVars first (.dom (.obj (.msg o FS) V)), s⟩ =
      some (.next,
        if (q.serializeNull || !t.empty v) = true then
          ⟨writeVars false (.dom (.obj (.msg o FS) V)),
           { s with
             out := s.out ++ (if first then b!"\"" else b!",\"") ++ jsonNameIn ctx f ++ b!"\":" ++ (t.write q v s.err).2.1
             err := (t.write q v s.err).2.2 }⟩
        else ⟨writeVars first (.dom (.obj (.msg o FS) V)), s⟩) := by
  have hfield : ∀ first s, eval (library n q functions0) (fieldOf b!"value" f.name) ⟨writeVars first (.dom (.obj (.msg o FS) V)), s⟩ =
      some (.dom (.obj t v), ⟨writeVars first (.dom (.obj (.msg o FS) V)), s⟩) := fun first s => eval_field (o := o) rfl hg
  have hempty := eval_json (f := b!"empty") (hfield first s) (evalAll_one (hfield first s)) (static_empty ..) rfl
  have hcond : eval (library n q functions0)
      (.binary b!"||" (.member (.member (.name b!"ctx") b!"params") b!"serialize_null")
        (.unary b!"!" (jsonCall (fieldOf b!"value" f.name) b!"empty" [fieldOf b!"value" f.name])))
      ⟨writeVars first (.dom (.obj (.msg o FS) V)), s⟩ =
      some (.bool (q.serializeNull || !t.empty v), ⟨writeVars first (.dom (.obj (.msg o FS) V)), s⟩) := by
    have h1 : eval (library n q functions0) (.member (.member (.name b!"ctx") b!"params") b!"serialize_null")
        ⟨writeVars first (.dom (.obj (.msg o FS) V)), s⟩ =
        some (.bool q.serializeNull, ⟨writeVars first (.dom (.obj (.msg o FS) V)), s⟩) := rfl
    rw [eval, h1, Option.bind_some, if_neg (by decide), if_pos rfl]
    cases q.serializeNull
    · simp only
      rw [eval, hempty]
      rfl
    · rfl
  rw [writeStmt, exec, hcond, Option.bind_some]
  cases hc : (q.serializeNull || !t.empty v)
  · simp only
    rw [execElse]
    rfl
  · simp only
    rw [exec, execAll, exec]
    have ha : eval (library n q functions0) (.cond (.name b!"f") (.str b!"\\\"") (.str b!",\\\""))
        ⟨writeVars first (.dom (.obj (.msg o FS) V)), s⟩ =
        some (.str (if first then b!"\"" else b!",\""), ⟨writeVars first (.dom (.obj (.msg o FS) V)), s⟩) := by
      cases first
      · have : cString b!",\\\"" = some b!",\"" := by decide +kernel
        rw [eval, eval_name rfl, Option.bind_some]
        simp only
        rw [eval, this]
        rfl
      · have : cString b!"\\\"" = some b!"\"" := by decide +kernel
        rw [eval, eval_name rfl, Option.bind_some]
        simp only
        rw [eval, this]
        rfl
    have hk : ∀ st : St Dom Run, eval (library n q functions0) (.str b!"\\\":") st = some (.str b!"\":", st) := by
      intro st
      have : cString b!"\\\":" = some b!"\":" := by decide +kernel
      rw [eval, this]
      rfl
    rw [eval_out (eval_out (eval_out eval_stream ha) (eval_label hu _)) (hk _)]
    simp only [Option.map_some, Option.bind_some]
    rw [execAll, exec, eval_json (f := b!"write") (hfield first _) (evalAll_two (eval_name rfl) (hfield first _)) (static_write ..) rfl]
    simp only [Option.map_some, Option.bind_some]
    rfl

theorem writes {l : List Field} {fs : Fields} (h : Matches ctx l fs) (hn : (l.map (·.name)).Nodup)
    (hu : ∀ f ∈ l, Persistent f = true → Usable ctx (jsonNameIn ctx f)) (p : Plug FS fs) (w : fs.Den) (first : Bool) (s : Run) (rest : List Stmt) :
    ∃ first', execAll (library n q functions0) ((l.filter Persistent).map (writeStmt ctx) ++ rest)
        ⟨writeVars first (.dom (.obj (.msg o FS) (p.to w))), s⟩ =
      execAll (library n q functions0) rest ⟨writeVars first' (.dom (.obj (.msg o FS) (p.to w))),
        { s with out := s.out ++ (fs.write q w first s.err).1, err := (fs.write q w first s.err).2 }⟩ := by
  induction h generalizing first s with
  | nil => exact ⟨first, by simp [Fields.write]⟩
  | @cons f t l fs h ih =>
    have ih := ih (List.nodup_cons.mp hn).2 (fun g hg => hu g (List.mem_cons_of_mem _ hg)) (p.tail w.1 (h.fresh hn)) w.2
    have hh : (p.tail w.1 (h.fresh hn)).to w.2 = p.to w := rfl
    rw [hh] at ih
    rw [Fields.write, fieldInfo_transient]
    cases hp : Persistent f
    · simp only [Bool.not_false, if_true]
      rw [List.filter_cons_of_neg (by simp [hp])]
      exact ih first s
    · simp only [Bool.not_true, Bool.false_eq_true, if_false]
      rw [List.filter_cons_of_pos hp, List.map_cons, List.cons_append, execAll]
      have hf := p.head w
      rw [fieldInfo_name] at hf
      rw [write_field hf (hu f (List.mem_cons_self ..) hp), Option.bind_some]
      simp only
      have hl : (fieldInfo ctx f).wlabel = jsonNameIn ctx f := by
        unfold fieldInfo
        rw [if_pos hp]
      cases hc : (q.serializeNull || !t.empty w.1)
      · simp only [Bool.false_eq_true, if_false]
        exact ih first s
      · simp only [if_true]
        obtain ⟨first', hi⟩ := ih false { s with
             out := s.out ++ (if first then b!"\"" else b!",\"") ++ jsonNameIn ctx f ++ b!"\":" ++ (t.write q w.1 s.err).2.1
             err := (t.write q w.1 s.err).2.2 }
        refine ⟨first', hi.trans ?_⟩
        rw [hl]
        simp only [List.append_assoc]

/-! ### `index` -/

/-- The key of a field. -/
def keyOf (ctx : Ctx) (f : Field) : Bytes := if ctx.obfuscate then reveal (jsonNameIn ctx f) else jsonNameIn ctx f

theorem Matches.table {l : List Field} {fs : Fields} (h : Matches ctx l fs) (i : Nat) :
    fs.table i = ((l.filter Persistent).zipIdx i).map fun x => (keyOf ctx x.1, x.2) := by
  induction h generalizing i with
  | nil => rfl
  | @cons f t l fs h ih =>
    rw [Fields.table, fieldInfo_transient]
    cases hp : Persistent f
    · simp only [Bool.not_false, if_true]
      rw [List.filter_cons_of_neg (by simp [hp]), ih]
    · simp only [Bool.not_true, Bool.false_eq_true, if_false]
      rw [List.filter_cons_of_pos hp, List.zipIdx_cons, List.map_cons, ih]
      have hl : (fieldInfo ctx f).key = keyOf ctx f := by
        unfold fieldInfo keyOf
        rw [if_pos hp]
      rw [hl]

theorem find_key (k : Bytes) (l : List (Bytes × Nat)) :
    (l.map fun x => (x.1, (x.2 : Int))).find? (fun e => e.1 == k) = (lookupKey k l).map fun (i : Nat) => (k, (i : Int)) := by
  induction l with
  | nil => rfl
  | cons x l ih =>
    rw [List.map_cons, List.find?_cons, lookupKey]
    by_cases h : x.1 = k
    · simp [h]
    · have hb : (x.1 == k) = false := by simpa using h
      rw [if_neg h, ← ih]
      simp only [hb]

theorem entries_eval {l : List (Field × Nat)} (hu : ∀ x ∈ l, Usable ctx (jsonNameIn ctx x.1)) (st : St Dom Run) :
    evalAll (library n q fn) (l.map (entryExpr ctx)) st = some (l.map fun x => .list [.str (keyOf ctx x.1), .int x.2], st) := by
  induction l with
  | nil => rw [List.map_nil, evalAll]; rfl
  | cons x l ih =>
    have h1 : eval (library n q fn) (entryExpr ctx x) st = some (.list [.str (keyOf ctx x.1), .int x.2], st) := by
      rw [entryExpr, eval, evalAll, eval, (hu x (List.mem_cons_self ..)).2]
      rfl
    rw [List.map_cons, evalAll, h1, Option.bind_some, ih (fun y hy => hu y (List.mem_cons_of_mem _ hy))]
    rfl

theorem mapM_entries (l : List (Field × Nat)) :
    (l.map fun x => (Val.list [.str (keyOf ctx x.1), .int x.2] : Val Dom)).mapM entry = some (l.map fun x => (keyOf ctx x.1, (x.2 : Int))) := by
  induction l with
  | nil => rfl
  | cons x l ih =>
    rw [List.map_cons, List.mapM_cons, ih]
    rfl

/-- The value a statement ends with. -/
def Flow.value : Flow Dom → Val Dom
  | .next => .void
  | .ret v => v

theorem run_of {L : Lib Dom Run} {f : Fun} {args : List (Val Dom)} {s s' : Run} {flow : Flow Dom} {vars vars' : List (Bytes × Val Dom)}
    (hl : args.length = f.params.length) (hv : (f.params.map (·.2)).zip args = vars)
    (he : execAll L f.body ⟨vars, s⟩ = some (flow, ⟨vars', s'⟩)) :
    f.run L args s = some (flow.value, vars'.drop (vars'.length - vars.length), s') := by
  unfold Fun.run
  rw [if_pos hl, hv]
  simp only
  rw [he]
  cases flow <;> rfl

/-- The result of `index`. -/
def indexValue : Option Nat → Int
  | none => -1
  | some i => i

theorem index_run {m : Message} {fs : Fields} (h : Matches ctx m.fields fs)
    (hu : ∀ f ∈ m.fields, Persistent f = true → Usable ctx (jsonNameIn ctx f)) (name : Bytes) (s : Run) :
    (indexFun ctx m).run (library n q functions0) [.str name] s =
      some (.int (indexValue (indexOf (ctx.obfuscate && m.fields.any Persistent) fs name)), [(b!"name", .str name)], s) := by
  have ht := h.table 0
  by_cases hne : m.fields.filter Persistent = []
  · have hb : (indexFun ctx m).body = [discarded b!"name", .ret (some (.unary b!"-" (.num 1)))] := by
      unfold indexFun
      simp only
      rw [if_pos hne]
    have he : execAll (library n q functions0) (indexFun ctx m).body ⟨[(b!"name", .str name)], s⟩ =
        some (.ret (.int (-1)), ⟨[(b!"name", .str name)], s⟩) := by
      rw [hb]
      rfl
    unfold indexOf
    rw [ht, hne]
    exact run_of (f := indexFun ctx m) (args := [.str name]) (vars := [(b!"name", .str name)]) rfl rfl he
  · unfold indexOf
    have ho : (ctx.obfuscate && m.fields.any Persistent) = ctx.obfuscate := by
      obtain ⟨f, l, hf⟩ := List.exists_cons_of_ne_nil hne
      have hm : f ∈ m.fields.filter Persistent := by rw [hf]; exact List.mem_cons_self ..
      have := List.mem_filter.mp hm
      rw [show m.fields.any Persistent = true from List.any_eq_true.mpr ⟨f, this⟩, Bool.and_true]
    rw [ho, ht]
    have hus : ∀ x ∈ (m.fields.filter Persistent).zipIdx, Usable ctx (jsonNameIn ctx x.1) := by
      intro x hx
      have := List.mem_filter.mp (mem_zipIdx_fst hx)
      exact hu x.1 this.1 this.2
    have hb : (indexFun ctx m).body =
        [if ctx.obfuscate then
          .decl [.word b!"std", .op b!"::", .word b!"string"] b!"temp" (some (.call (.name b!"reveal") [.name b!"name"]))
         else .decl [.word b!"const", .word b!"std", .op b!"::", .word b!"string", .op b!"&"] b!"temp" (some (.name b!"name")),
         .decl tableType b!"FIELDS" (some (.braces ((m.fields.filter Persistent).zipIdx.map (entryExpr ctx)))),
         .decl [.word b!"auto"] b!"it" (some (.call (.member (.name b!"FIELDS") b!"find") [.name b!"temp"])),
         .ret (some (.cond (.binary b!"==" (.name b!"it") (.call (.member (.name b!"FIELDS") b!"end") []))
           (.unary b!"-" (.num 1)) (.arrow (.name b!"it") b!"second")))] := by
      unfold indexFun
      simp only
      rw [if_neg hne]
    generalize (m.fields.filter Persistent).zipIdx = l at hus hb ⊢
    have h1 : exec (library n q functions0)
        (if ctx.obfuscate then
          .decl [.word b!"std", .op b!"::", .word b!"string"] b!"temp" (some (.call (.name b!"reveal") [.name b!"name"]))
         else .decl [.word b!"const", .word b!"std", .op b!"::", .word b!"string", .op b!"&"] b!"temp" (some (.name b!"name")))
        ⟨[(b!"name", .str name)], s⟩ =
        some (.next, ⟨[(b!"temp", .str (if ctx.obfuscate then reveal name else name)), (b!"name", .str name)], s⟩) := by
      cases ctx.obfuscate <;> rfl
    generalize (if ctx.obfuscate then reveal name else name) = key at h1 ⊢
    have hfind := find_key key (l.map fun x => (keyOf ctx x.1, x.2))
    rw [List.map_map] at hfind
    have h2 : exec (library n q functions0) (.decl tableType b!"FIELDS" (some (.braces (l.map (entryExpr ctx)))))
        ⟨[(b!"temp", .str key), (b!"name", .str name)], s⟩ =
        some (.next, ⟨[(b!"FIELDS", .dom (.table (l.map fun x => (keyOf ctx x.1, (x.2 : Int))))), (b!"temp", .str key),
          (b!"name", .str name)], s⟩) := by
      rw [exec, eval, entries_eval hus]
      simp only [Option.map_some, Option.bind_some]
      have h2 : (library n q functions0).init tableType (.list (l.map fun x => .list [.str (keyOf ctx x.1), .int x.2])) =
          some (.dom (.table (l.map fun x => (keyOf ctx x.1, (x.2 : Int))))) := by
        rw [show (library n q functions0).init = domInit from rfl]
        unfold domInit
        rw [if_neg (by decide)]
        simp only
        rw [if_pos trivial, mapM_entries]
        rfl
      rw [h2]
      rfl
    have h3 : exec (library n q functions0)
        (.decl [.word b!"auto"] b!"it" (some (.call (.member (.name b!"FIELDS") b!"find") [.name b!"temp"])))
        ⟨[(b!"FIELDS", .dom (.table (l.map fun x => (keyOf ctx x.1, (x.2 : Int))))), (b!"temp", .str key), (b!"name", .str name)], s⟩ =
        some (.next, ⟨[(b!"it", .dom (.iter ((lookupKey key (l.map fun x => (keyOf ctx x.1, x.2))).map fun (i : Nat) => (key, (i : Int))))),
          (b!"FIELDS", .dom (.table (l.map fun x => (keyOf ctx x.1, (x.2 : Int))))), (b!"temp", .str key), (b!"name", .str name)], s⟩) := by
      rw [← hfind]
      rfl
    have h4 : ∀ (i : Option Nat) (T : Dom), (∃ l, T = .table l) → exec (library n q functions0)
        (.ret (some (.cond (.binary b!"==" (.name b!"it") (.call (.member (.name b!"FIELDS") b!"end") []))
           (.unary b!"-" (.num 1)) (.arrow (.name b!"it") b!"second"))))
        ⟨[(b!"it", .dom (.iter (i.map fun (i : Nat) => (key, (i : Int))))), (b!"FIELDS", .dom T), (b!"temp", .str key), (b!"name", .str name)], s⟩ =
        some (.ret (.int (indexValue i)),
          ⟨[(b!"it", .dom (.iter (i.map fun (i : Nat) => (key, (i : Int))))), (b!"FIELDS", .dom T), (b!"temp", .str key), (b!"name", .str name)], s⟩) := by
      rintro i T ⟨l, rfl⟩
      cases i <;> rfl
    have he : execAll (library n q functions0) (indexFun ctx m).body ⟨[(b!"name", .str name)], s⟩ =
        some (.ret (.int (indexValue (lookupKey key (l.map fun x => (keyOf ctx x.1, x.2))))),
        ⟨[(b!"it", .dom (.iter ((lookupKey key (l.map fun x => (keyOf ctx x.1, x.2))).map fun (i : Nat) => (key, (i : Int))))),
          (b!"FIELDS", .dom (.table (l.map fun x => (keyOf ctx x.1, (x.2 : Int))))), (b!"temp", .str key), (b!"name", .str name)], s⟩) := by
      rw [hb, execAll, h1]
      simp only [Option.bind_some]
      rw [execAll, h2]
      simp only [Option.bind_some]
      rw [execAll, h3]
      simp only [Option.bind_some]
      rw [execAll, h4 _ _ ⟨_, rfl⟩]
      rfl
    exact run_of (f := indexFun ctx m) (args := [.str name]) (vars := [(b!"name", .str name)]) rfl rfl he

/-! ### `read_field` -/

/-- The variables of `read_field`. -/
abbrev readVars (idx : Int) (name : Bytes) (v : Val Dom) : List (Bytes × Val Dom) :=
  [(b!"idx", .int idx), (b!"ctx", .dom .ctx), (b!"name", .str name), (b!"value", v)]

theorem switch_run {l : List Field} {fs : Fields} (h : Matches ctx l fs) (hn : (l.map (·.name)).Nodup) (p : Plug FS fs) (w : fs.Den)
    (idx : Int) (name : Bytes) (s : Run) (i j : Nat) :
    execCases (library n q fn) ((j + i : Nat) : Int) (((l.filter Persistent).zipIdx j).map readCase)
        ⟨readVars idx name (.dom (.obj (.msg o FS) (p.to w))), s⟩ (fun st => execAll (library n q fn) [.ret (some (.name b!"PGR_NIL"))] st) =
      some (.ret (.dom (.rc (fs.readAt i n s.tz w).1)), ⟨readVars idx name (.dom (.obj (.msg o FS) (p.to (fs.readAt i n s.tz w).2.2))),
        { s with tz := (fs.readAt i n s.tz w).2.1 }⟩) := by
  induction h generalizing i j with
  | nil => rfl
  | @cons f t l fs h ih =>
    rw [Fields.readAt.eq_def]
    simp only
    rw [fieldInfo_transient]
    cases hp : Persistent f
    · simp only [Bool.not_false, if_true]
      rw [List.filter_cons_of_neg (by simp [hp])]
      exact ih (List.nodup_cons.mp hn).2 (p.tail w.1 (h.fresh hn)) w.2 i j
    · simp only [Bool.not_true, Bool.false_eq_true, if_false]
      rw [List.filter_cons_of_pos hp, List.zipIdx_cons, List.map_cons, readCase]
      cases i with
      | zero =>
        have hf := p.head w
        have hs := p.head_set w (t.read n s.tz w.1).2.2
        rw [fieldInfo_name] at hf hs
        have he := eval_field (n := n) (q := q) (fn := fn) (o := o) (v := b!"value")
          (st := ⟨readVars idx name (.dom (.obj (.msg o FS) (p.to w))), s⟩) rfl hf
        have hc := eval_json (f := b!"read") he (evalAll_two (a := .name b!"ctx") (eval_name rfl) he) (static_read ..)
          (by rw [storeAll, storeAll, store_field rfl hs rfl, Option.bind_some, storeAll])
        rw [execCases]
        simp only [Nat.add_zero, if_true]
        rw [execAll, exec, hc]
        rfl
      | succ i =>
        rw [execCases]
        simp only
        rw [if_neg (by omega)]
        have := ih (List.nodup_cons.mp hn).2 (p.tail w.1 (h.fresh hn)) w.2 i (j + 1)
        rw [show j + 1 + i = j + (i + 1) by omega] at this
        exact this

theorem class_index (ctx : Ctx) (m : Message) : (classOf ctx m).fun b!"index" = some (indexFun ctx m) := by rfl
theorem class_readField (ctx : Ctx) (m : Message) : (classOf ctx m).fun b!"read_field" = some (readFieldFun m) := by rfl

theorem readField_run {m : Message} {fs : Fields} (h : Matches ctx m.fields fs) (hn : (m.fields.map (·.name)).Nodup)
    (hu : ∀ f ∈ m.fields, Persistent f = true → Usable ctx (jsonNameIn ctx f)) (name : Bytes) (tz : Tz) (v : fs.Den) :
    (classOf ctx m).readField n q (.msg (ctx.obfuscate && m.fields.any Persistent) fs) name tz v =
      some (match indexOf (ctx.obfuscate && m.fields.any Persistent) fs name with
        | none => (.nil, tz, v)
        | some i => fs.readAt i n tz v) := by
  have hi := index_run (n := n) (q := q) h hu name ⟨tz, [], {}⟩
  have hz : (m.fields.filter Persistent) = [] → indexOf (ctx.obfuscate && m.fields.any Persistent) fs name = none := by
    intro he
    unfold indexOf
    rw [h.table, he]
    rfl
  generalize (ctx.obfuscate && m.fields.any Persistent) = o at hi hz ⊢
  have key : (readFieldFun m).run (library n q (functions1 n q (classOf ctx m))) [.dom .ctx, .str name, .dom (.obj (.msg o fs) v)] ⟨tz, [], {}⟩ =
      some (.dom (.rc (match indexOf o fs name with | none => (.nil, tz, v) | some i => fs.readAt i n tz v : Res fs.Den).1),
        [(b!"ctx", .dom .ctx), (b!"name", .str name),
         (b!"value", .dom (.obj (.msg o fs) (match indexOf o fs name with | none => (.nil, tz, v) | some i => fs.readAt i n tz v : Res fs.Den).2.2))],
        ⟨(match indexOf o fs name with | none => (.nil, tz, v) | some i => fs.readAt i n tz v : Res fs.Den).2.1, [], {}⟩) := by
    by_cases hne : m.fields.filter Persistent = []
    · rw [hz hne]
      refine run_of (vars := [(b!"ctx", .dom .ctx), (b!"name", .str name), (b!"value", .dom (.obj (.msg o fs) v))])
        (flow := .ret (.dom (.rc .nil)))
        (vars' := [(b!"ctx", .dom .ctx), (b!"name", .str name), (b!"value", .dom (.obj (.msg o fs) v))]) rfl rfl ?_
      unfold readFieldFun
      simp only
      rw [if_pos hne]
      rfl
    · have hb : (readFieldFun m).body =
          [.decl [.word b!"int"] b!"idx" (some (.call (.name b!"index") [.name b!"name"])),
           .ite (.binary b!"<" (.name b!"idx") (.num 0)) (.ret (some (.name b!"PGR_NIL"))) none,
           .switch (.name b!"idx") ((m.fields.filter Persistent).zipIdx.map readCase) [.ret (some (.name b!"PGR_NIL"))]] := by
        unfold readFieldFun
        simp only
        rw [if_neg hne]
      have h1 : exec (library n q (functions1 n q (classOf ctx m))) (.decl [.word b!"int"] b!"idx" (some (.call (.name b!"index") [.name b!"name"])))
          ⟨[(b!"ctx", .dom .ctx), (b!"name", .str name), (b!"value", .dom (.obj (.msg o fs) v))], ⟨tz, [], {}⟩⟩ =
          some (.next, ⟨readVars (indexValue (indexOf o fs name)) name (.dom (.obj (.msg o fs) v)), ⟨tz, [], {}⟩⟩) := by
        rw [exec, eval, evalAll_one (eval_name rfl), Option.bind_some]
        have hf : functions1 n q (classOf ctx m) b!"index" ⟨tz, [], {}⟩ [.str name] =
            some (.int (indexValue (indexOf o fs name)), [], ⟨tz, [], {}⟩) := by
          unfold functions1
          rw [if_pos rfl, class_index, Option.bind_some, hi]
          rfl
        show Option.bind (apply _ (functions1 n q (classOf ctx m) b!"index") _ [.str name] _) _ = _
        rw [apply, hf]
        rfl
      have h3 : ∀ i : Nat, execAll (library n q (functions1 n q (classOf ctx m)))
          [.switch (.name b!"idx") ((m.fields.filter Persistent).zipIdx.map readCase) [.ret (some (.name b!"PGR_NIL"))]]
          ⟨readVars i name (.dom (.obj (.msg o fs) v)), ⟨tz, [], {}⟩⟩ =
          some (.ret (.dom (.rc (fs.readAt i n tz v).1)), ⟨readVars i name (.dom (.obj (.msg o fs) (fs.readAt i n tz v).2.2)),
            ⟨(fs.readAt i n tz v).2.1, [], {}⟩⟩) := by
        intro i
        have hs := switch_run (n := n) (q := q) (fn := functions1 n q (classOf ctx m)) (o := o) h hn (Plug.all fs) v i name ⟨tz, [], {}⟩ i 0
        rw [Nat.zero_add] at hs
        have hs' : execCases (library n q (functions1 n q (classOf ctx m))) (i : Int) ((m.fields.filter Persistent).zipIdx.map readCase)
            ⟨readVars i name (.dom (.obj (.msg o fs) v)), ⟨tz, [], {}⟩⟩
            (fun st => execAll (library n q (functions1 n q (classOf ctx m))) [.ret (some (.name b!"PGR_NIL"))] st) = _ := hs
        rw [execAll, exec, eval_name rfl, Option.bind_some]
        simp only
        rw [hs']
        rfl
      cases e : indexOf o fs name with
      | none =>
        rw [e] at h1
        refine run_of (vars := [(b!"ctx", .dom .ctx), (b!"name", .str name), (b!"value", .dom (.obj (.msg o fs) v))])
          (flow := .ret (.dom (.rc .nil))) (vars' := readVars (-1) name (.dom (.obj (.msg o fs) v))) rfl rfl ?_
        rw [hb, execAll, h1]
        rfl
      | some i =>
        rw [e] at h1
        refine run_of (vars := [(b!"ctx", .dom .ctx), (b!"name", .str name), (b!"value", .dom (.obj (.msg o fs) v))])
          (flow := .ret (.dom (.rc (fs.readAt i n tz v).1))) (vars' := readVars i name (.dom (.obj (.msg o fs) (fs.readAt i n tz v).2.2))) rfl rfl ?_
        rw [hb, execAll, h1]
        simp only [Option.bind_some]
        rw [execAll]
        have h2 : exec (library n q (functions1 n q (classOf ctx m)))
            (.ite (.binary b!"<" (.name b!"idx") (.num 0)) (.ret (some (.name b!"PGR_NIL"))) none)
            ⟨readVars (indexValue (some i)) name (.dom (.obj (.msg o fs) v)), ⟨tz, [], {}⟩⟩ =
            some (.next, ⟨readVars i name (.dom (.obj (.msg o fs) v)), ⟨tz, [], {}⟩⟩) := by
          have hlt : eval (library n q (functions1 n q (classOf ctx m))) (.binary b!"<" (.name b!"idx") (.num 0))
              ⟨readVars (indexValue (some i)) name (.dom (.obj (.msg o fs) v)), ⟨tz, [], {}⟩⟩ =
              some (.bool (decide ((i : Int) < 0)), ⟨readVars i name (.dom (.obj (.msg o fs) v)), ⟨tz, [], {}⟩⟩) := rfl
          rw [exec, hlt, Option.bind_some, show decide ((i : Int) < 0) = false from decide_eq_false (by omega)]
          rfl
        rw [h2]
        simp only [Option.bind_some]
        exact h3 i
  unfold Class.readField
  rw [class_readField, Option.bind_some, key]
  simp only
  rw [dif_pos trivial]

/-! ### All functions -/

theorem readFun_run {m : Message} {t : Ty} {rf : Bytes → Tz → t.Den → Res t.Den} (s : Run) (v : t.Den) :
    (readFun m).run (library n q (functions2 n t rf)) [.dom .ctx, .dom (.obj t v)] s =
      some (.dom (.rc (readObj rf n s.tz v).1), [(b!"ctx", .dom .ctx), (b!"value", .dom (.obj t (readObj rf n s.tz v).2.2))],
        { s with tz := (readObj rf n s.tz v).2.1 }) := by
  refine run_of (vars := [(b!"ctx", .dom .ctx), (b!"value", .dom (.obj t v))])
    (vars' := [(b!"ctx", .dom .ctx), (b!"value", .dom (.obj t (readObj rf n s.tz v).2.2))])
    (flow := .ret (.dom (.rc (readObj rf n s.tz v).1))) rfl rfl ?_
  have hf : functions2 n t rf b!"read_object" s [.dom .ctx, .dom (.obj t v)] =
      some (.dom (.rc (readObj rf n s.tz v).1), [none, some (.dom (.obj t (readObj rf n s.tz v).2.2))],
        { s with tz := (readObj rf n s.tz v).2.1 }) := by
    unfold functions2
    rw [if_pos rfl]
    simp only
    rw [dif_pos trivial]
  unfold readFun
  simp only
  rw [execAll, exec, eval, evalAll_two (eval_name rfl) (eval_name rfl), Option.bind_some]
  show Option.bind (Option.map _ (apply _ (functions2 n t rf b!"read_object") _ [.dom .ctx, .dom (.obj t v)] _)) _ = _
  rw [apply]
  simp only
  rw [hf]
  rfl

theorem Matches.write_none {l : List Field} {fs : Fields} (h : Matches ctx l fs) (p : Params) (he : l.filter Persistent = []) (v : fs.Den)
    (b : Bool) (e : ErrInfo) : fs.write p v b e = ([], e) := by
  induction h with
  | nil => rfl
  | @cons f t l fs h ih =>
    have hp : Persistent f = false := by
      cases hp : Persistent f
      · rfl
      · rw [List.filter_cons_of_pos hp] at he
        cases he
    rw [List.filter_cons_of_neg (by simp [hp])] at he
    rw [Fields.write, fieldInfo_transient, hp]
    exact ih he v.2

/-- **The class of a message has the functions of its type.** -/
theorem implements {m : Message} {fs : Fields} (h : Matches ctx m.fields fs) (hn : (m.fields.map (·.name)).Nodup)
    (hu : ∀ f ∈ m.fields, Persistent f = true → Usable ctx (jsonNameIn ctx f)) :
    (classOf ctx m).Implements (.msg (ctx.obfuscate && m.fields.any Persistent) fs) := by
  constructor
  · intro n p
    refine ⟨_, fun name tz v => readField_run h hn hu name tz v, readFun m, rfl, fun s v => ?_⟩
    rw [readFun_run]
    simp only [Ty.read]
    rfl
  · refine ⟨writeFun ctx m, rfl, fun n p s v => ?_⟩
    have hz := h.write_none p
    generalize (ctx.obfuscate && m.fields.any Persistent) = o at v ⊢
    rw [Ty.write]
    simp only
    by_cases hne : m.fields.filter Persistent = []
    · have hb : (writeFun ctx m).body =
          [discarded b!"value", .expr (.binary b!"<<" stream (.str b!"{}")), .ret (some (.name b!"PGR_OK"))] := by
        unfold writeFun
        simp only
        rw [if_pos hne]
      have he : execAll (library n p functions0) (writeFun ctx m).body ⟨[(b!"ctx", .dom .ctx), (b!"value", .dom (.obj (.msg o fs) v))], s⟩ =
          some (.ret (.dom (.rc .ok)), ⟨[(b!"ctx", .dom .ctx), (b!"value", .dom (.obj (.msg o fs) v))], { s with out := s.out ++ b!"{}" }⟩) := by
        rw [hb]
        rfl
      rw [hz hne]
      exact run_of (f := writeFun ctx m) (args := [.dom .ctx, .dom (.obj (.msg o fs) v)])
        (vars := [(b!"ctx", .dom .ctx), (b!"value", .dom (.obj (.msg o fs) v))]) rfl rfl he
    · have hb : (writeFun ctx m).body =
          [.decl [.word b!"bool"] b!"f" (some (.name b!"true")), .expr (.binary b!"<<" stream (.chr b!"{"))] ++
          ((m.fields.filter Persistent).map (writeStmt ctx) ++ [.expr (.binary b!"<<" stream (.chr b!"}")), .ret (some (.name b!"PGR_OK"))]) := by
        unfold writeFun
        simp only
        rw [if_neg hne]
        simp only [List.append_assoc]
      obtain ⟨first, hw⟩ := writes (n := n) (q := p) (o := o) h hn hu (Plug.all fs) v true { s with out := s.out ++ [c!"{"] }
        [.expr (.binary b!"<<" stream (.chr b!"}")), .ret (some (.name b!"PGR_OK"))]
      have he : execAll (library n p functions0) (writeFun ctx m).body ⟨[(b!"ctx", .dom .ctx), (b!"value", .dom (.obj (.msg o fs) v))], s⟩ =
          some (.ret (.dom (.rc .ok)), ⟨writeVars first (.dom (.obj (.msg o fs) v)),
            { s with out := s.out ++ [c!"{"] ++ (fs.write p v true s.err).1 ++ [c!"}"], err := (fs.write p v true s.err).2 }⟩) := by
        rw [hb]
        exact Eq.trans rfl (hw.trans rfl)
      refine (run_of (f := writeFun ctx m) (args := [.dom .ctx, .dom (.obj (.msg o fs) v)])
        (vars := [(b!"ctx", .dom .ctx), (b!"value", .dom (.obj (.msg o fs) v))]) rfl rfl he).trans ?_
      simp only [List.append_assoc]
      rfl
  · refine ⟨emptyFun m, rfl, fun n p s v => ?_⟩
    generalize (ctx.obfuscate && m.fields.any Persistent) = o at v ⊢
    rw [Ty.empty]
    have he : execAll (library n p functions0) (emptyFun m).body ⟨[(b!"value", .dom (.obj (.msg o fs) v))], s⟩ =
        some (.ret (.bool (fs.empty v)), ⟨[(b!"value", .dom (.obj (.msg o fs) v))], s⟩) := by
      unfold emptyFun
      cases hm : m.fields with
      | nil =>
        rw [hm] at h
        cases h
        rfl
      | cons f l =>
        rw [hm] at h hn
        cases h with
        | @cons _ t _ fs h =>
          have hc : eval (library n p functions0) (emptyExpr f) ⟨[(b!"value", .dom (.obj (.msg o (.cons (fieldInfo ctx f) t fs)) v))], s⟩ =
              some (.bool (t.empty v.1), ⟨[(b!"value", .dom (.obj (.msg o (.cons (fieldInfo ctx f) t fs)) v))], s⟩) := by
            have hf := (Plug.all (.cons (fieldInfo ctx f) t fs)).head v
            rw [fieldInfo_name] at hf
            have he := eval_field (n := n) (q := p) (fn := functions0) (o := o) (v := b!"value")
              (st := ⟨[(b!"value", .dom (.obj (.msg o (.cons (fieldInfo ctx f) t fs)) v))], s⟩) rfl hf
            exact eval_json he (evalAll_one he) (static_empty ..) rfl
          have hall := empties (n := n) (q := p) (fn := functions0) (o := o) h (List.nodup_cons.mp hn).2
            (st := ⟨[(b!"value", .dom (.obj (.msg o (.cons (fieldInfo ctx f) t fs)) v))], s⟩)
            ((Plug.all (.cons (fieldInfo ctx f) t fs)).tail v.1 (h.fresh hn)) v.2 rfl rfl (emptyExpr f) (t.empty v.1) hc
          rw [Fields.empty]
          simp only
          rw [execAll, exec, hall]
          rfl
    exact run_of (f := emptyFun m) (args := [.dom (.obj (.msg o fs) v)]) (vars := [(b!"value", .dom (.obj (.msg o fs) v))]) rfl rfl he
  · refine ⟨clearFun m, rfl, fun n p s v => ?_⟩
    generalize (ctx.obfuscate && m.fields.any Persistent) = o at v ⊢
    rw [Ty.clear]
    have he : execAll (library n p functions0) (clearFun m).body ⟨[(b!"value", .dom (.obj (.msg o fs) v))], s⟩ =
        some (.next, ⟨[(b!"value", .dom (.obj (.msg o fs) (fs.clear v)))], s⟩) := by
      unfold clearFun
      simp only
      split
      · rename_i hm
        rw [hm] at h
        cases h
        rfl
      · exact clears (n := n) (q := p) (fn := functions0) (o := o) h hn (Plug.all fs) v s
    exact run_of (f := clearFun m) (args := [.dom (.obj (.msg o fs) v)]) (vars := [(b!"value", .dom (.obj (.msg o fs) v))]) rfl rfl he
  · refine ⟨equalFun m, rfl, fun n p s v w => ?_⟩
    generalize (ctx.obfuscate && m.fields.any Persistent) = o at v w ⊢
    rw [Ty.equal]
    have he : execAll (library n p functions0) (equalFun m).body
        ⟨[(b!"a", .dom (.obj (.msg o fs) v)), (b!"b", .dom (.obj (.msg o fs) w))], s⟩ =
        some (.ret (.bool (fs.equal v w)), ⟨[(b!"a", .dom (.obj (.msg o fs) v)), (b!"b", .dom (.obj (.msg o fs) w))], s⟩) := by
      unfold equalFun
      cases hm : m.fields with
      | nil =>
        rw [hm] at h
        cases h
        rfl
      | cons f l =>
        rw [hm] at h hn
        cases h with
        | @cons _ t _ fs h =>
          have hc : eval (library n p functions0) (equalExpr f) ⟨[(b!"a", .dom (.obj (.msg o (.cons (fieldInfo ctx f) t fs)) v)),
                (b!"b", .dom (.obj (.msg o (.cons (fieldInfo ctx f) t fs)) w))], s⟩ =
              some (.bool (t.equal v.1 w.1), ⟨[(b!"a", .dom (.obj (.msg o (.cons (fieldInfo ctx f) t fs)) v)),
                (b!"b", .dom (.obj (.msg o (.cons (fieldInfo ctx f) t fs)) w))], s⟩) := by
            have hf := (Plug.all (.cons (fieldInfo ctx f) t fs)).head v
            have hf' := (Plug.all (.cons (fieldInfo ctx f) t fs)).head w
            rw [fieldInfo_name] at hf hf'
            have he := eval_field (n := n) (q := p) (fn := functions0) (o := o) (v := b!"a")
              (st := ⟨[(b!"a", .dom (.obj (.msg o (.cons (fieldInfo ctx f) t fs)) v)),
                (b!"b", .dom (.obj (.msg o (.cons (fieldInfo ctx f) t fs)) w))], s⟩) rfl hf
            have he' := eval_field (n := n) (q := p) (fn := functions0) (o := o) (v := b!"b")
              (st := ⟨[(b!"a", .dom (.obj (.msg o (.cons (fieldInfo ctx f) t fs)) v)),
                (b!"b", .dom (.obj (.msg o (.cons (fieldInfo ctx f) t fs)) w))], s⟩) rfl hf'
            exact eval_json he (evalAll_two he he') (static_equal ..) rfl
          have hall := equals (n := n) (q := p) (fn := functions0) (o := o) h (List.nodup_cons.mp hn).2
            (st := ⟨[(b!"a", .dom (.obj (.msg o (.cons (fieldInfo ctx f) t fs)) v)),
                (b!"b", .dom (.obj (.msg o (.cons (fieldInfo ctx f) t fs)) w))], s⟩)
            ((Plug.all (.cons (fieldInfo ctx f) t fs)).tail v.1 (h.fresh hn))
            ((Plug.all (.cons (fieldInfo ctx f) t fs)).tail w.1 (h.fresh hn)) v.2 w.2 rfl rfl rfl (equalExpr f) (t.equal v.1 w.1) hc
          rw [Fields.equal]
          simp only
          rw [execAll, exec, hall]
          rfl
    exact run_of (f := equalFun m) (args := [.dom (.obj (.msg o fs) v), .dom (.obj (.msg o fs) w)])
      (vars := [(b!"a", .dom (.obj (.msg o fs) v)), (b!"b", .dom (.obj (.msg o fs) w))]) rfl rfl he
  · refine ⟨swapFun m, rfl, fun n p s v w => ?_⟩
    generalize (ctx.obfuscate && m.fields.any Persistent) = o at v w ⊢
    rw [Ty.swap]
    have he : execAll (library n p functions0) (swapFun m).body
        ⟨[(b!"a", .dom (.obj (.msg o fs) v)), (b!"b", .dom (.obj (.msg o fs) w))], s⟩ =
        some (.next, ⟨[(b!"a", .dom (.obj (.msg o fs) (fs.swap v w).1)), (b!"b", .dom (.obj (.msg o fs) (fs.swap v w).2))], s⟩) := by
      unfold swapFun
      simp only
      split
      · rename_i hm
        rw [hm] at h
        cases h
        rfl
      · exact swaps (n := n) (q := p) (fn := functions0) (o := o) h hn (Plug.all fs) (Plug.all fs) v w s
    exact run_of (f := swapFun m) (args := [.dom (.obj (.msg o fs) v), .dom (.obj (.msg o fs) w)])
      (vars := [(b!"a", .dom (.obj (.msg o fs) v)), (b!"b", .dom (.obj (.msg o fs) w))]) rfl rfl he

end

end PG.Cpp
