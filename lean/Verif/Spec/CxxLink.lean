import Verif.Spec.CxxLib
import Verif.Model.HeaderTxt
import Verif.Proofs.CxxMono
import Verif.Proofs.Fuel
/-
The functions of the class `tokenizer` (protogen.hh:289-603) calling each other: where `Spec/CxxLib.lean` gives a function its meaning,
its text is parsed and executed instead, and the same is done for what it calls, down to a given depth of calls.  What is not defined
by a text here: the functions of `istream`, `token(…)`, `peek`, `error`, `strtol`, which call none of these.
-/
set_option autoImplicit false
namespace PG.Cxx
open PG.Gen
variable {D S V F : Type}

/-- Where the texts are, in protogen.hh. -/
def linesOf (f : Name) : Option (Nat × Nat) :=
  if f = n!"next" then some (300, 354)
  else if f = n!"expect" then some (356, 364)
  else if f = n!"ignore" then some (379, 379)
  else if f = n!"parse_identifier" then some (386, 401)
  else if f = n!"parse_string" then some (403, 449)
  else if f = n!"parse_escaped_utf8" then some (451, 510)
  else if f = n!"parse_number" then some (522, 539)
  else if f = n!"ignore_array" then some (541, 555)
  else if f = n!"ignore_object" then some (557, 575)
  else if f = n!"ignore_value" then some (577, 602)
  else none

/-- The functions. -/
def code (f : Name) : Option Fun := (linesOf f).bind fun l => Fun.of [] 60 (slice protogenLines l.1 l.2)

/-- The new values of the arguments that are passed by reference, if there are any. -/
def modified (params : List (Name × Name)) (last : List (Val D)) : List (Option (Val D)) :=
  if params.any fun p => p.1 = n!"std :: string &" ∨ p.1 = n!"int32_t &" then
    (params.zip last).map fun q => if q.1.1 = n!"std :: string &" ∨ q.1.1 = n!"int32_t &" then some q.2 else none
  else []

/-- A function that is called. -/
def Fun.called (f : Fun) (L : Lib D S) (n : Nat) : Callee D S := fun s args =>
  (f.run L n args s).map fun r => (r.1, modified f.params r.2.1, r.2.2)

/-- The library with other functions in place of those that have a text. -/
def inner (σ : Bool) (ops : Ops V F) (T : Name → Callee (Dom V F) World) : Lib (Dom V F) World :=
  (runtimeLib σ ops).with
    (fun p w args =>
      match p with
      | [f] => if (linesOf f).isSome then T f w args else functions σ ops [f] w args
      | p => functions σ ops p w args)
    (runtimeLib σ ops).method

/-- What the text of a function does if calls nest at most as deep as given; loops make at most as many iterations as there are
characters left, twice and a few. -/
def deep (σ : Bool) (ops : Ops V F) : Nat → Name → Callee (Dom V F) World
  | 0, _ => fun _ _ => none
  | k + 1, f => fun w args => (code f).bind fun c => c.called (inner σ ops (deep σ ops k)) (enough w.tz) w args

/-- How deep calls may nest: one level for each level of the call graph, two for each token that is left. -/
def rank (f : Name) (w : World) : Nat :=
  if f = n!"parse_identifier" ∨ f = n!"parse_escaped_utf8" ∨ f = n!"parse_number" then 0
  else if f = n!"parse_string" then 1
  else if f = n!"next" then 2
  else if f = n!"expect" then 3
  else if f = n!"ignore_array" ∨ f = n!"ignore_object" then 2 * w.tz.m + 4
  else if f = n!"ignore_value" then 2 * w.tz.m + 5
  else 2 * w.tz.m + 6

/-- The library in which the functions of the tokenizer are their texts, wherever they are called from. -/
def whole (σ : Bool) (ops : Ops V F) : Lib (Dom V F) World :=
  (runtimeLib σ ops).with
    (fun p w args =>
      match p with
      | [f] => if (linesOf f).isSome then deep σ ops (rank f w + 1) f w args else functions σ ops [f] w args
      | p => functions σ ops p w args)
    (fun f w args =>
      match args with
      | .dom .tokPtr :: rest =>
        if (linesOf f).isSome then deep σ ops (rank f w + 1) f w rest else (runtimeLib σ ops).method f w (.dom .tokPtr :: rest)
      | args => (runtimeLib σ ops).method f w args)

end PG.Cxx
