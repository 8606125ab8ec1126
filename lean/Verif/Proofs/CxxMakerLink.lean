import Verif.Spec.CxxMakerLink
import Verif.Proofs.GenWholeRun
import Verif.Proofs.GenTextRun
import Verif.Proofs.GenPrinterRun
import Verif.Proofs.CxxProtoLink
/-
The functions of the generator, each of them its text and calling the texts of the others (Spec/CxxMakerLink.lean), do what the model
does.
-/
set_option autoImplicit false
namespace PG.Cxx.Throw
open PG.Proto PG.Gen PG.Cxx.Maker

variable {s : Bool} {w : Given}

/-- The same for another depth of the recursion, and with or without the functions for the whole file. -/
def givenAt (w : Given) (d : Nat) (b : Bool) : Given := { w with depth := d, whole := b }

/-- How deep calls of a function for one message nest (no function calls itself). -/
def makerRank (f : Name) : Nat :=
  if f = n!"generateMessage" then 4
  else if f = n!"generateModel" ∨ f = n!"generateModelWrapper" then 3
  else if f = n!"fieldNativeType" ∨ f = n!"generate_function__read_field" ∨ f = n!"generate_function__write" ∨
    f = n!"generate_function__index" then 2
  else if f = n!"nativeType" ∨ f = n!"is_transient" ∨ f = n!"get_json_name" ∨ f = n!"generateEntity" ∨
    f = n!"generateEntityWrapper" then 1
  else 0

/-- The functions for one message. -/
def forMessage (f : Name) : Bool := f ∈ makerNames ∧ f ≠ n!"contains" ∧ f ≠ n!"sort" ∧ f ≠ n!"generateInclusions"

/-- What is called at a depth. -/
def makerBelow (B : Nat) (f : Name) : Bool := (f ∉ makerNames) || (forMessage f && decide (makerRank f < B))

theorem makerCode_of {f : Name} {args : List (Val GVal)} {a b : Nat} {c : Fun} (h : makerLines f args = some (a, b))
    (t : Fun.of [] 60 (genText a b) = some c) (k : c.name = f ∧ c.params.length = args.length) : makerCode f args = some c := by
  unfold makerCode
  rw [h, Option.bind_some]
  dsimp only
  rw [t, Option.bind_some, if_pos k]

/-- One function: if its text does what its meaning is in a library that the texts of what it calls serve. -/
theorem deepMake_step {k d : Nat} {b : Bool} {P : Name → Bool} {f : Name} {st : Printed} {args : List (Val GVal)} {c : Fun}
    (hc : makerCode f args = some c) (hu : c.body.Uses P = true)
    (hs : Serves P (genLib s (givenAt w d b)) (makerFunction s w (deepMake s w k)) (genLib s w).method)
    {r : Ran (Val GVal × List (Option (Val GVal)) × Printed)}
    (h : r = (run (genLib s (givenAt w d b)) (makerLoops w args) c args st).bind fun r => .ok (r.1, makerChanged f args r.2.1, r.2.2)) :
    Le r (deepMake s w (k + 1) f st args) := by
  show Le r ((Ran.of (makerCode f args)).bind _)
  rw [hc, h]
  exact (run_le hs _ c hu args st).bind fun r => Le.refl _

theorem not_named {f g : Name} (hf : f ∈ makerNames) (h : g ∉ makerNames) : (f = g) = False :=
  eq_false fun e => h (e ▸ hf)

theorem shape_if {α β : Type} {c : Prop} [Decidable c] {x y z : α} {l : β} {b : Option β} (h : y = z ∨ b.isSome = true) :
    (if c then x else y) = z ∨ (if c then some l else b).isSome = true := by
  by_cases k : c
  · rw [if_pos k, if_pos k]; exact .inr rfl
  · rw [if_neg k, if_neg k]; exact h

/-- A function that has a text is called with arguments for which there is one, or the call is not defined. -/
theorem called_shape {f : Name} (hf : f ∈ makerNames) (st : Printed) (args : List (Val GVal)) :
    (genLib s w).function [f] st args = .undef ∨ (makerLines f args).isSome = true := by
  have e1 := not_named hf (g := n!"exception") (by decide)
  have e2 := not_named hf (g := n!"throw") (by decide)
  have e3 := not_named hf (g := n!"obfuscate") (by decide)
  have e4 := not_named hf (g := n!"Printer") (by decide)
  have e5 := not_named hf (g := n!"GeneratorContext") (by decide)
  unfold genLib
  dsimp only
  simp only [e1, e2, e3, e4, e5, List.cons.injEq, and_true, reduceCtorEq, and_false, or_false, if_false]
  split
  all_goals try exact .inl rfl
  all_goals unfold makerLines
  all_goals dsimp only
  all_goals repeat refine shape_if ?_
  all_goals exact .inl rfl

/-- Functions without a text do not depend on the depth of the recursion, nor on whether there are those for the whole file. -/
theorem function_at (d : Nat) (b : Bool) (p : List Name) (h : ∀ f, p = [f] → f ∉ makerNames) (st : Printed) (args : List (Val GVal)) :
    (genLib s (givenAt w d b)).function p st args = (genLib s w).function p st args := by
  have e1 : ¬ p = [n!"sort"] := fun e => h _ e (by decide)
  have e2 : ¬ p = [n!"generateInclusions"] := fun e => h _ e (by decide)
  have e3 : ¬ p = [n!"generateModel"] := fun e => h _ e (by decide)
  unfold genLib
  dsimp only
  simp only [if_neg e1, if_neg e2, if_neg e3]
  rfl

theorem text_bound (x : Bytes) : x.length < makerLoops w [.str x] := Nat.lt_succ_self _

theorem json_bound (f : Field) (v : Bytes) (h : getString f.options b!"name" f.name = .ok v) :
    v.length < makerLoops w [.dom (.field f)] := by
  simp only [makerLoops, h]
  omega

theorem guarded {α : Type} {c : Prop} [Decidable c] {x y : Ran α} (h : c → Le x y) : Le (if c then x else .undef) y := by
  by_cases k : c
  · rw [if_pos k]; exact h k
  · rw [if_neg k]; exact Le.none _

/-- The text of `obfuscate` does what the library does. -/
theorem obfuscate_model (st : Printed) (args : List (Val GVal)) :
    Le ((genLib s w).function [n!"obfuscate"] st args) (obfuscateCalled s w st args) := by
  unfold obfuscateCalled
  split
  · rename_i x
    by_cases hx : x.length < 18446744073709551616
    · rw [if_pos hx, obfuscateFun_text]
      have h := obfuscate_runs (s := s) (x.length + 1) x (Nat.lt_succ_self _) hx
      refine .inr ?_
      show (run (hexLib s) (x.length + 1) obfuscateFun [.str x] ([], false)).bind _ = _
      cases hr : run (hexLib s) (x.length + 1) obfuscateFun [.str x] ([], false) with
      | ok r =>
        obtain ⟨v, l, u⟩ := r
        rw [hr] at h
        have h : v = .str (obfuscateText x) := Ran.ok.inj h
        subst h
        rfl
      | _ => rw [hr] at h; cases h
    · rw [if_neg hx]; exact Le.refl _
  · rename_i h
    refine .inl ?_
    unfold genLib
    dsimp only
    rw [if_neg (by decide)]
    split
    all_goals first
      | rfl
      | exact absurd rfl (h _)
      | simp only [reduceCtorEq, if_false]

/-- The text of `Printer::print` does for labels what the library does. -/
theorem format_model (st : Printed) (args : List (Val GVal)) :
    Le ((genLib s w).function [n!"Printer", n!"format"] st args) (formatCalled s st args) := by
  unfold formatCalled
  split
  · rename_i f x
    show Le (if [n!"Printer", n!"format"] = [n!"Printer", n!"format"] ∧ f ∈ labelFormats then _ else _) _
    refine guarded fun h => .inr ?_
    have hi : Indexed f ∧ (0 : Byte) ∉ f := by
      have h := h.2
      unfold labelFormats at h
      simp only [List.mem_cons, List.not_mem_nil, or_false] at h
      rcases h with rfl | rfl
      · exact ⟨indexed_iff _ (by decide +kernel), by decide +kernel⟩
      · exact ⟨indexed_iff _ (by decide +kernel), by decide +kernel⟩
    rw [printFun_text]
    have hr := print_runs (s := s) (f.length + 1) f [] [x] (Nat.lt_succ_self _) (show 1 < 2147483648 by decide) hi.1 hi.2
    rw [List.map_cons, List.map_nil] at hr
    show (run (printLib s) (f.length + 1) printFun [.dom .out, .ptr f, .arr [.str x]] []).bind _ = _
    rw [hr]
    rfl
  · rename_i h
    refine .inl ?_
    unfold genLib
    dsimp only
    rw [if_neg (by decide)]
    split
    all_goals first
      | rfl
      | exact absurd rfl (h _ _)
      | simp only [List.cons.injEq, reduceCtorEq, and_false, if_false]

/-- Texts that do what the library does serve in its place. -/
theorem maker_serves {d k : Nat} {b : Bool} {P : Name → Bool}
    (h : ∀ f st args, f ∈ makerNames → P f = true → Le ((genLib s (givenAt w d b)).function [f] st args) (deepMake s w k f st args)) :
    Serves P (genLib s (givenAt w d b)) (makerFunction s w (deepMake s w k)) (genLib s w).method := by
  refine ⟨?_, fun _ _ _ => Le.refl _⟩
  intro p hp st args
  match p with
  | [f] =>
    show Le _ (if f ∈ makerNames then deepMake s w k f st args
      else if f = n!"obfuscate" then obfuscateCalled s w st args else (genLib s w).function [f] st args)
    by_cases hk : f ∈ makerNames
    · rw [if_pos hk]; exact h f st args hk (hp f rfl)
    · rw [if_neg hk, function_at d b [f] (fun g e => by cases e; exact hk)]
      by_cases ho : f = n!"obfuscate"
      · rw [if_pos ho, ho]; exact obfuscate_model st args
      · rw [if_neg ho]; exact Le.refl _
  | [] =>
    show Le _ (if [] = [n!"Printer", n!"format"] then formatCalled s st args else (genLib s w).function [] st args)
    rw [if_neg (by decide)]
    exact .inr (function_at d b _ (fun g e => by cases e) st args).symm
  | x :: y :: z =>
    show Le _ (if x :: y :: z = [n!"Printer", n!"format"] then formatCalled s st args else (genLib s w).function (x :: y :: z) st args)
    rw [function_at d b _ (fun g e => by cases e) st args]
    by_cases ho : x :: y :: z = [n!"Printer", n!"format"]
    · rw [if_pos ho, ho]; exact format_model st args
    · rw [if_neg ho]; exact Le.refl _

/-- The texts of the functions for one message do what the library does, to any depth that is enough. -/
theorem message_model (d : Nat) : (k : Nat) → (f : Name) → (st : Printed) → (args : List (Val GVal)) → forMessage f = true →
    makerRank f < k → Le ((genLib s (givenAt w d false)).function [f] st args) (deepMake s w k f st args)
  | 0, _, _, _, _, h => absurd h (Nat.not_lt_zero _)
  | k + 1, f, st, args, hf, hr => by
    have hs : ∀ B, B ≤ k → Serves (makerBelow B) (genLib s (givenAt w d false)) (makerFunction s w (deepMake s w k)) (genLib s w).method :=
      fun B hB => maker_serves fun g st args hg hP => by
        unfold makerBelow at hP
        simp only [hg, not_true_eq_false, decide_false, Bool.false_or, Bool.and_eq_true, decide_eq_true_eq] at hP
        exact message_model d k g st args hP.1 (by omega)
    have hn : f ∈ makerNames := (of_decide_eq_true hf).1
    rcases called_shape (s := s) (w := givenAt w d false) hn st args with e | e
    · rw [e]; exact Le.none _
    unfold makerLines at e
    split at e
    all_goals repeat' split at e
    all_goals first | (cases e; done) | skip
    all_goals subst_vars
    all_goals first | (exact absurd hf (by decide)) | skip
    · refine deepMake_step (d := d) (b := false) (makerCode_of rfl Maker.packageFun_text ⟨rfl, rfl⟩) (by decide +kernel) (hs _ (Nat.le_of_lt_succ hr)) ?_
      rw [nativePackage_runs _ _ _ (text_bound _)]
      rfl
    · refine deepMake_step (d := d) (b := false) (makerCode_of rfl Maker.guardFun_text ⟨rfl, rfl⟩) (by decide +kernel) (hs _ (Nat.le_of_lt_succ hr)) ?_
      rw [guard_runs _ _ _ (text_bound _)]
      rfl
    · refine guarded fun g => ?_
      refine deepMake_step (d := d) (b := false) (makerCode_of rfl Maker.typeFun_text ⟨rfl, rfl⟩) (by decide +kernel) (hs _ (Nat.le_of_lt_succ hr)) ?_
      rw [nativeType_runs _ _ _ g.1 g.2, ← bind_then]
      rfl
    · refine deepMake_step (d := d) (b := false) (makerCode_of rfl Maker.transientFun_text ⟨rfl, rfl⟩) (by decide +kernel) (hs _ (Nat.le_of_lt_succ hr)) ?_
      rw [transient_runs _ _ _, ← bind_then]
      rfl
    · refine deepMake_step (d := d) (b := false) (makerCode_of rfl Maker.jsonNameFun_text ⟨rfl, rfl⟩) (by decide +kernel) (hs _ (Nat.le_of_lt_succ hr)) ?_
      rw [jsonName_runs _ _ _ (json_bound _), ← bind_then]
      rfl
    · refine guarded fun g => ?_
      refine deepMake_step (d := d) (b := false) (makerCode_of rfl Maker.fieldTypeFun_text ⟨rfl, rfl⟩) (by decide +kernel) (hs _ (Nat.le_of_lt_succ hr)) ?_
      rw [fieldType_runs _ _ _ _ g, ← bind_then]
      rfl
    · refine deepMake_step (d := d) (b := false) (makerCode_of rfl Maker.stringFun_text ⟨rfl, rfl⟩) (by decide +kernel) (hs _ (Nat.le_of_lt_succ hr)) ?_
      rw [getString_runs _ _ _ _ _, ← bind_then]
      rfl
    · refine deepMake_step (d := d) (b := false) (makerCode_of rfl Maker.boolFun_text ⟨rfl, rfl⟩) (by decide +kernel) (hs _ (Nat.le_of_lt_succ hr)) ?_
      rw [getBool_runs _ _ _ _ _, ← bind_then]
      rfl
    · refine deepMake_step (d := d) (b := false) (makerCode_of rfl Maker.namespaceFun_text ⟨rfl, rfl⟩) (by decide +kernel) (hs _ (Nat.le_of_lt_succ hr)) ?_
      rw [namespace_runs _ _ _ _ _ _ (by simp only [makerLoops]; omega), ← bind_then]
      rfl
    · refine guarded fun g => ?_
      refine deepMake_step (d := d) (b := false) (makerCode_of rfl Maker.indexFun_text ⟨rfl, rfl⟩) (by decide +kernel) (hs _ (Nat.le_of_lt_succ hr)) ?_
      rw [index_runs _ _ _ _ _ _ (by simp only [makerLoops]; omega) g, ← bind_then]
      rfl
    · refine guarded fun g => ?_
      refine deepMake_step (d := d) (b := false) (makerCode_of rfl Maker.modelFun_text ⟨rfl, rfl⟩) (by decide +kernel) (hs _ (Nat.le_of_lt_succ hr)) ?_
      rw [model_runs _ _ _ _ _ (by simp only [makerLoops]; omega) g, ← bind_then]
      rfl
    · refine guarded fun g => ?_
      refine deepMake_step (d := d) (b := false) (makerCode_of rfl Maker.wrapperFun_text ⟨rfl, rfl⟩) (by decide +kernel) (hs _ (Nat.le_of_lt_succ hr)) ?_
      rw [wrapper_runs _ _ _ _ _ (by simp only [makerLoops]; omega) g, ← bind_then]
      rfl
    · refine deepMake_step (d := d) (b := false) (makerCode_of rfl Maker.entityFun_text ⟨rfl, rfl⟩) (by decide +kernel) (hs _ (Nat.le_of_lt_succ hr)) ?_
      rw [entity_runs _ _ _ _ _, ← bind_then]
      rfl
    · refine deepMake_step (d := d) (b := false) (makerCode_of rfl Maker.entityWrapperFun_text ⟨rfl, rfl⟩) (by decide +kernel) (hs _ (Nat.le_of_lt_succ hr)) ?_
      rw [entityWrapper_runs _ _ _ _ _, ← bind_then]
      rfl
    · refine guarded fun g => ?_
      refine deepMake_step (d := d) (b := false) (makerCode_of rfl Maker.messageFun_text ⟨rfl, rfl⟩) (by decide +kernel) (hs _ (Nat.le_of_lt_succ hr)) ?_
      rw [generateMessage_runs _ _ _ _ _ g.1 g.2, ← bind_then]
      rfl
    · refine guarded fun g => ?_
      refine deepMake_step (d := d) (b := false) (makerCode_of rfl Maker.readFun_text ⟨rfl, rfl⟩) (by decide +kernel) (hs _ (Nat.le_of_lt_succ hr)) ?_
      rw [read_runs _ _ _ _ _ _ _ (by simp only [makerLoops]; omega) g, ← bind_then]
      rfl
    · refine guarded fun g => ?_
      refine deepMake_step (d := d) (b := false) (makerCode_of rfl Maker.writeFun_text ⟨rfl, rfl⟩) (by decide +kernel) (hs _ (Nat.le_of_lt_succ hr)) ?_
      rw [write_runs _ _ _ _ _ _ _ (by simp only [makerLoops]; omega) g, ← bind_then]
      rfl
    · refine guarded fun g => ?_
      refine deepMake_step (d := d) (b := false) (makerCode_of rfl Maker.emptyFun_text ⟨rfl, rfl⟩) (by decide +kernel) (hs _ (Nat.le_of_lt_succ hr)) ?_
      rw [emptyFields_runs _ _ _ _ _ _ (by simp only [makerLoops]; omega) g, ← bind_then]
      rfl
    · refine guarded fun g => ?_
      refine deepMake_step (d := d) (b := false) (makerCode_of rfl Maker.clearFun_text ⟨rfl, rfl⟩) (by decide +kernel) (hs _ (Nat.le_of_lt_succ hr)) ?_
      rw [clearFields_runs _ _ _ _ _ _ (by simp only [makerLoops]; omega) g, ← bind_then]
      rfl
    · refine guarded fun g => ?_
      refine deepMake_step (d := d) (b := false) (makerCode_of rfl Maker.equalFun_text ⟨rfl, rfl⟩) (by decide +kernel) (hs _ (Nat.le_of_lt_succ hr)) ?_
      rw [equalFields_runs _ _ _ _ _ _ (by simp only [makerLoops]; omega) g, ← bind_then]
      rfl
    · refine guarded fun g => ?_
      refine deepMake_step (d := d) (b := false) (makerCode_of rfl Maker.swapFun_text ⟨rfl, rfl⟩) (by decide +kernel) (hs _ (Nat.le_of_lt_succ hr)) ?_
      rw [swapFields_runs _ _ _ _ _ _ (by simp only [makerLoops]; omega) g, ← bind_then]
      rfl
    · exact Le.none _

/-! ### Sorting -/

theorem numbers_some : {l : List (Val GVal)} → {r : List Nat} → numbers l = some r → l = r.map fun i => .dom (.ref (some i))
  | [], r, h => by
    injection h with h
    subst h
    rfl
  | v :: l, r, h => by
    unfold numbers at h
    split at h
    · rename_i h1
      cases h1
    · rename_i i l' h1
      injection h1 with h1 h2
      subst h1 h2
      cases e : numbers l with
      | none => rw [e] at h; cases h
      | some q =>
        rw [e] at h
        injection h with h
        subst h
        rw [List.map_cons, ← numbers_some e]
    · cases h

theorem contains_model (d k : Nat) (b : Bool) (st : Printed) (args : List (Val GVal)) :
    Le ((genLib s (givenAt w d b)).function [n!"contains"] st args) (deepMake s w (k + 1) n!"contains" st args) := by
  have hs : Serves (makerBelow 0) (genLib s (givenAt w d b)) (makerFunction s w (deepMake s w k)) (genLib s w).method :=
    maker_serves fun g st args hg hP => by
      unfold makerBelow at hP
      simp [hg] at hP
  rcases called_shape (s := s) (w := givenAt w d b) (f := n!"contains") (by decide) st args with e | e
  · rw [e]; exact Le.none _
  unfold makerLines at e
  split at e
  all_goals first | (exact absurd e (by decide)) | skip
  rename_i l r
  cases r with
  | none => exact Le.none _
  | some i =>
    show Le ((Ran.of (numbers l)).bind _) _
    cases hl : numbers l with
    | none => exact Le.none _
    | some l' =>
      have hq := numbers_some hl
      subst hq
      refine guarded fun g => ?_
      refine deepMake_step (d := d) (b := b) (makerCode_of rfl Maker.containsFun_text ⟨rfl, rfl⟩) (by decide +kernel) hs ?_
      have h := contains_runs (s := s) (w := givenAt w d b) (makerLoops w [.arr (l'.map fun i => .dom (.ref (some i))), .dom (.ref (some i))]) l' i st
        (by simp only [makerLoops, List.length_map]; omega) g
      rw [show pointers l' = .arr (l'.map fun i => .dom (.ref (some i))) from rfl] at h
      rw [h]
      rfl

/-- What `sort` for one message calls. -/
def sortCalls (f : Name) : Bool := f ∉ makerNames ∨ f = n!"contains" ∨ f = n!"sort"

theorem sort_model (hL : Linked w.msgs) (hb : w.msgs.length < 18446744073709551616)
    (hf : ∀ m ∈ w.msgs, m.fields.length < 18446744073709551616) : (d k : Nat) → d < k → (st : Printed) → (args : List (Val GVal)) →
    Le ((genLib s (givenAt w d false)).function [n!"sort"] st args) (deepMake s w k n!"sort" st args)
  | _, 0, h, _, _ => absurd h (Nat.not_lt_zero _)
  | d, k + 1, h, st, args => by
    rcases called_shape (s := s) (w := givenAt w d false) (f := n!"sort") (by decide) st args with e | e
    · rw [e]; exact Le.none _
    unfold makerLines at e
    split at e
    all_goals first | (exact absurd e (by decide)) | skip
    · rename_i l q r
      cases r with
      | none => exact Le.none _
      | some i =>
        show Le ((Ran.of (numbers l)).bind _) _
        cases hl : numbers l with
        | none => exact Le.none _
        | some l' =>
          have hq := numbers_some hl
          subst hq
          refine guarded fun g => ?_
          obtain ⟨g1, g2, g3, g4⟩ := g
          cases d with
          | zero =>
            have := nodup_bound _ _ g3.1 g3.2
            have : w.msgs.length < 0 + q.length := g4
            have : q.length ≤ w.msgs.length := by assumption
            omega
          | succ d =>
            have hs : Serves sortCalls (genLib s (givenAt w d false)) (makerFunction s w (deepMake s w k)) (genLib s w).method :=
              maker_serves fun f st args hf' hP => by
                rcases of_decide_eq_true hP with e | e | e
                · exact absurd hf' e
                · subst e
                  obtain ⟨j, rfl⟩ : ∃ j, k = j + 1 := ⟨k - 1, by omega⟩
                  exact contains_model d j false st args
                · subst e
                  exact sort_model hL hb hf d k (by omega) st args
            have hi : w.msgs[i]? = some (w.msgs[i]'g1) := List.getElem?_eq_getElem g1
            have hfa : fieldsAt w.msgs i = (w.msgs[i]'g1).fields := by rw [fieldsAt, hi]; rfl
            refine deepMake_step (d := d) (b := false) (makerCode_of rfl Maker.sortFun_text ⟨rfl, rfl⟩) (by decide +kernel) hs ?_
            have h := sort_runs (s := s) (w := givenAt w d false)
              (makerLoops w [.arr (l'.map fun i => .dom (.ref (some i))), .dom (.set q), .dom (.ref (some i))]) i _ ⟨l', q⟩ st hi
              (by simp only [makerLoops, hfa]; omega) (hf _ (List.getElem_mem g1)) hL hb g2 g3 g4
            rw [show pointers (SortSt.mk l' q).output = .arr (l'.map fun i => .dom (.ref (some i))) from rfl] at h
            rw [h, ← bind_then]
            rfl
    · exact Le.none _

/-! ### The file -/

/-- Only functions that are given just the context depend on whether those for the whole file have a meaning. -/
theorem function_whole (d : Nat) (p : List Name) (st : Printed) (args : List (Val GVal)) :
    (∃ c o, args = [.dom (.ctx c o)]) ∨
      (genLib s (givenAt w d true)).function p st args = (genLib s (givenAt w d false)).function p st args := by
  by_cases h : ∃ c o, args = [.dom (.ctx c o)]
  · exact .inl h
  · refine .inr ?_
    unfold genLib
    dsimp only
    split
    · rfl
    · split
      all_goals first | rfl | exact absurd ⟨_, _, rfl⟩ h

/-- The conditions: references are to messages of the schema, and there are not more messages or fields than can be counted. -/
structure Countable (msgs : List Message) : Prop where
  linked : Linked msgs
  messages : msgs.length < 18446744073709551616
  fields : ∀ m ∈ msgs, m.fields.length < 18446744073709551616

variable (hw : Countable w.msgs)
include hw

theorem sortAll_model (d k : Nat) (hd : w.msgs.length < d) (hk : d + 1 < k) (st : Printed) (args : List (Val GVal)) :
    Le ((genLib s (givenAt w d true)).function [n!"sort"] st args) (deepMake s w k n!"sort" st args) := by
  rcases function_whole (s := s) (w := w) d [n!"sort"] st args with ⟨c, o, rfl⟩ | e
  · obtain ⟨j, rfl⟩ : ∃ j, k = j + 1 := ⟨k - 1, by omega⟩
    have hs : Serves sortCalls (genLib s (givenAt w d false)) (makerFunction s w (deepMake s w j)) (genLib s w).method :=
      maker_serves fun f st args hf' hP => by
        rcases of_decide_eq_true hP with e | e | e
        · exact absurd hf' e
        · subst e
          obtain ⟨i, rfl⟩ : ∃ i, j = i + 1 := ⟨j - 1, by omega⟩
          exact contains_model d i false st args
        · subst e
          exact sort_model hw.linked hw.messages hw.fields d j (by omega) st args
    refine guarded fun g => ?_
    have g2 : o = List.range w.msgs.length := g.2
    subst g2
    refine deepMake_step (d := d) (b := false) (makerCode_of rfl Maker.sortAllFun_text ⟨rfl, rfl⟩) (by decide +kernel) hs ?_
    rw [sortAll_runs (w := givenAt w d false) (makerLoops w [.dom (.ctx c (List.range w.msgs.length))]) c (List.range w.msgs.length) st
      (by simp only [makerLoops, List.length_range]; omega) (by rw [List.length_range]; exact hw.messages) hw.linked
      (fun i hi => List.mem_range.mp hi) hd, ← bind_then]
    rfl
  · rw [e]
    exact sort_model hw.linked hw.messages hw.fields d k (by omega) st args

/-- The functions that the one for the whole file calls. -/
theorem lower_model (d k : Nat) (hd : w.msgs.length < d) (hk : d + 5 < k) {f : Name} (hf : f ∈ makerNames) (h1 : f ≠ n!"generateModel")
    (h2 : f ≠ n!"generateInclusions") (st : Printed) (args : List (Val GVal)) :
    Le ((genLib s (givenAt w d true)).function [f] st args) (deepMake s w k f st args) := by
  by_cases h3 : f = n!"sort"
  · subst h3
    exact sortAll_model hw d k hd (by omega) st args
  by_cases h4 : f = n!"contains"
  · subst h4
    obtain ⟨j, rfl⟩ : ∃ j, k = j + 1 := ⟨k - 1, by omega⟩
    exact contains_model d j true st args
  have hm : forMessage f = true := decide_eq_true ⟨hf, h4, h3, h2⟩
  rcases function_whole (s := s) (w := w) d [f] st args with ⟨c, o, rfl⟩ | e
  · rcases called_shape (s := s) (w := givenAt w d true) hf st [.dom (.ctx c o)] with e | e
    · rw [e]; exact Le.none _
    · simp only [makerLines, if_neg h1, if_neg h2, if_neg h3, Option.isSome_none] at e
      cases e
  · rw [e]
    refine message_model d k f st args hm ?_
    unfold makerRank
    repeat' split
    all_goals omega

/-- What the functions for the whole file call. -/
def fileCalls (f : Name) : Bool := f ∉ makerNames ∨ (f ≠ n!"generateModel" ∧ f ≠ n!"generateInclusions")

theorem file_serves (d k : Nat) (hd : w.msgs.length < d) (hk : d + 5 < k) :
    Serves fileCalls (genLib s (givenAt w d true)) (makerFunction s w (deepMake s w k)) (genLib s w).method :=
  maker_serves fun f st args hf hP => by
    rcases of_decide_eq_true hP with e | e
    · exact absurd hf e
    · exact lower_model hw d k hd hk hf e.1 e.2 st args

omit hw in
theorem fields_bound {m : Message} (h : m ∈ w.msgs) : m.fields.length ≤ (w.msgs.flatMap (·.fields)).length := by
  generalize w.msgs = l at h
  induction l with
  | nil => cases h
  | cons a l ih =>
    rw [List.flatMap_cons, List.length_append]
    rcases List.mem_cons.mp h with rfl | h
    · omega
    · have := ih h; omega

/-- All functions of the generator. -/
theorem maker_model (d k : Nat) (hd : w.msgs.length < d) (hk : d + 6 < k) {f : Name} (hf : f ∈ makerNames) (st : Printed)
    (args : List (Val GVal)) : Le ((genLib s (givenAt w d true)).function [f] st args) (deepMake s w k f st args) := by
  obtain ⟨j, rfl⟩ : ∃ j, k = j + 1 := ⟨k - 1, by omega⟩
  have hs := file_serves (s := s) hw d j hd (by omega)
  by_cases h1 : f = n!"generateModel"
  · subst h1
    rcases function_whole (s := s) (w := w) d [n!"generateModel"] st args with ⟨c, o, rfl⟩ | e
    · refine guarded fun g => ?_
      have g2 : o = List.range w.msgs.length := g.2
      subst g2
      refine deepMake_step (d := d) (b := true) (makerCode_of rfl Maker.fileFun_text ⟨rfl, rfl⟩) (by decide +kernel) hs ?_
      have h := file_runs (s := s) (w := givenAt w d true) rfl (makerLoops w [.dom (.ctx c (List.range w.msgs.length))]) c st hw.linked
        (by show w.msgs.length < _; simp only [makerLoops]; omega) hw.messages hw.fields
      rw [show (givenAt w d true).msgs = w.msgs from rfl] at h
      rw [h]
      show ((does w.rt st (generateFile d w.fileName w.msgs c)).bind fun r => (resOf r.2 (sortAll w.msgs d)).bind fun o => _) =
        ((does w.rt st (generateFile d w.fileName w.msgs c)).bind fun r => (resOf r.2 (sortAll w.msgs d)).bind fun o => _).bind _
      cases does w.rt st (generateFile d w.fileName w.msgs c) with
      | ok r => cases sortAll w.msgs d <;> rfl
      | _ => rfl
    · rw [e]
      exact message_model d (j + 1) _ st args (by decide) (by show 3 < j + 1; omega)
  by_cases h2 : f = n!"generateInclusions"
  · subst h2
    rcases called_shape (s := s) (w := givenAt w d true) hf st args with e | e
    · rw [e]; exact Le.none _
    unfold makerLines at e
    split at e
    all_goals first | (exact absurd e (by decide)) | skip
    rename_i c o
    refine guarded fun g => ?_
    have g2 : o = List.range w.msgs.length := g.2
    subst g2
    refine deepMake_step (d := d) (b := true) (makerCode_of rfl Maker.inclusionsFun_text ⟨rfl, rfl⟩) (by decide +kernel) hs ?_
    have h := inclusions_runs (s := s) (w := givenAt w d true) (makerLoops w [.dom (.ctx c (List.range w.msgs.length))]) c st
      (by show w.msgs.length < _; simp only [makerLoops]; omega) hw.messages
      (fun m hm => ⟨by have := fields_bound (w := w) hm; simp only [makerLoops]; omega, hw.fields m hm⟩)
    rw [show (givenAt w d true).msgs = w.msgs from rfl] at h
    rw [h, ← bind_then]
    rfl
  · exact lower_model hw d (j + 1) hd (by omega) hf h1 h2 st args

/-- `CppGenerator::generate` as a text that calls the texts of the others. -/
theorem generate_linked (hb : w.whole = true) (k : Nat) (hd : w.msgs.length < w.depth) (hk : w.depth + 6 < k) (st : Printed) (p : Bytes) :
    generateCalled s w k st = (does w.rt st (generate w.depth w.fileName ⟨w.msgs, w.options, p⟩)).bind fun r => .ok (.void, r.2) := by
  have e : givenAt w w.depth true = w := by cases w; cases hb; rfl
  have hs : Serves (fun _ => true) (genLib s w) (makerFunction s w (deepMake s w k)) (genLib s w).method := by
    have := maker_serves (s := s) (w := w) (d := w.depth) (b := true) (P := fun _ => true) fun f st args hf _ =>
      maker_model hw w.depth k hd hk hf st args
    rwa [e] at this
  have h := generate_runs (s := s) hb 1 st p
  unfold generateCalled
  rw [Maker.generateFun_text]
  show (run (linkedMaker s w k) 1 Maker.generateFun _ st).bind _ = _
  rcases run_le hs 1 Maker.generateFun (Stmts.uses_all _) [.dom (.root (List.range w.msgs.length)), .dom .out] st with u | u
  · rw [u] at h
    revert h
    cases generate w.depth w.fileName ⟨w.msgs, w.options, p⟩ with
    | mk calls r => cases r <;> nofun
  · rw [← h]
    exact congrArg (fun x : Ran (Val GVal × List (Val GVal) × Printed) => x.bind fun r => Ran.ok (r.1, r.2.2)) u

end PG.Cxx.Throw
