import Verif.Proofs.CxxLinkIgnore
import Verif.Proofs.CxxNext
import Verif.Proofs.CxxUtf8
import Verif.Proofs.CxxString
/-
The functions of the tokenizer, each of them its text and calling the texts of the others (Spec/CxxLink.lean), do what the model does.
-/
set_option autoImplicit false
namespace PG.Cxx
open PG.Gen
variable {V F : Type} {σ : Bool} {ops : Ops V F}

/-- A property of the names that have a text. -/
theorem linesOf_cases {f : Name} {Q : Name → Prop} (h : (linesOf f).isSome = true) (h1 : Q n!"next") (h2 : Q n!"expect")
    (h3 : Q n!"ignore") (h4 : Q n!"parse_identifier") (h5 : Q n!"parse_string") (h6 : Q n!"parse_escaped_utf8")
    (h7 : Q n!"parse_number") (h8 : Q n!"ignore_array") (h9 : Q n!"ignore_object") (h10 : Q n!"ignore_value") : Q f := by
  unfold linesOf at h
  split at h
  · subst_vars; assumption
  split at h
  · subst_vars; assumption
  split at h
  · subst_vars; assumption
  split at h
  · subst_vars; assumption
  split at h
  · subst_vars; assumption
  split at h
  · subst_vars; assumption
  split at h
  · subst_vars; assumption
  split at h
  · subst_vars; assumption
  split at h
  · subst_vars; assumption
  split at h
  · subst_vars; assumption
  · cases h

/-- A text that is parsed. -/
theorem code_of {f : Name} {a b : Nat} {c : Fun} (h : linesOf f = some (a, b)) (t : Fun.of [] 60 (slice protogenLines a b) = some c) :
    code f = some c := by
  unfold code
  rw [h, Option.bind_some]
  exact t

/-- In the library they are what the model does. -/
theorem function_linked {f : Name} (h : (linesOf f).isSome = true) (w : World) (args : List (Val (Dom V F))) :
    (runtimeLib σ ops).function [f] w args = tokenizer σ f w args :=
  linesOf_cases (Q := fun f => (runtimeLib σ ops).function [f] w args = tokenizer σ f w args) h rfl rfl rfl rfl rfl rfl rfl rfl rfl rfl

/-- The names whose rank does not depend on the text and is less than that, and those without a text. -/
def low (B : Nat) (f : Name) : Bool :=
  (linesOf f).isNone || (f = n!"parse_identifier" ∨ f = n!"parse_escaped_utf8" ∨ f = n!"parse_number") && 0 < B ||
    f = n!"parse_string" && 1 < B || f = n!"next" && 2 < B

theorem low_rank {B : Nat} {f : Name} (h : low B f = true) (k : (linesOf f).isSome = true) (w : World) : rank f w < B := by
  revert h
  refine linesOf_cases (Q := fun f => low B f = true → rank f w < B) k ?_ ?_ ?_ ?_ ?_ ?_ ?_ ?_ ?_ ?_ <;>
    simp [low, rank, linesOf]

/-- The library below a rank, for functions that call only what is below. -/
theorem low_serves (B : Nat) : Serves (low B) (runtimeLib σ ops) (limited σ ops B).function (limited σ ops B).method where
  function := by
    intro p h s args
    match p with
    | [f] =>
      show Le _ (if (linesOf f).isSome then (if rank f s < B then tokenizer σ f s args else none) else functions σ ops [f] s args)
      by_cases k : (linesOf f).isSome = true
      · rw [if_pos k, if_pos (low_rank (h f rfl) k s), function_linked k]
        exact Le.refl _
      · rw [if_neg k]
        exact Le.refl _
    | [] => exact Le.refl _
    | _ :: _ :: _ => exact Le.refl _
  method := fun _ _ _ => Le.refl _

/-- A run with the library is a run with what is below the rank. -/
theorem low_run (B : Nat) {f : Fun} (h : f.body.Uses (low B) = true) {n : Nat} {args : List (Val (Dom V F))} {w : World}
    {r : Val (Dom V F) × List (Val (Dom V F)) × World} (k : f.run (runtimeLib σ ops) n args w = some r) :
    f.run (limited σ ops B) n args w = some r :=
  run_le (low_serves B) n f h args w r k

/-- The library below a rank, in a library that does what the model does up to there. -/
theorem limited_serves (B : Nat) {T : Name → Callee (Dom V F) World}
    (h : ∀ f w args, (linesOf f).isSome = true → rank f w < B → Le (tokenizer σ f w args) (T f w args)) :
    Serves (fun _ => true) (limited σ ops B) (inner σ ops T).function (inner σ ops T).method where
  function := by
    intro p _ s args
    match p with
    | [f] =>
      show Le (if (linesOf f).isSome then (if rank f s < B then tokenizer σ f s args else none) else functions σ ops [f] s args)
        (if (linesOf f).isSome then T f s args else functions σ ops [f] s args)
      by_cases k : (linesOf f).isSome = true
      · rw [if_pos k, if_pos k]
        by_cases hr : rank f s < B
        · rw [if_pos hr]
          exact h f s args k hr
        · rw [if_neg hr]
          exact Le.none _
      · rw [if_neg k, if_neg k]
        exact Le.refl _
    | [] => exact Le.refl _
    | _ :: _ :: _ => exact Le.refl _
  method := fun _ _ _ => Le.refl _

/-! What a call of each of them looks like. -/

theorem no_args {f : Name} {w : World} {args : List (Val (Dom V F))} {r : Val (Dom V F) × List (Option (Val (Dom V F))) × World}
    (h : tokenizer σ f w args = some r) (h1 : f ≠ n!"expect") (h2 : f ≠ n!"error") (h3 : f ≠ n!"parse_escaped_utf8") : args = [] := by
  unfold tokenizer at h
  split at h
  · rfl
  · rw [if_neg h1] at h; cases h
  · rw [if_neg h2] at h; cases h
  · rw [if_neg fun x => h3 x.1] at h; cases h
  · cases h

theorem expect_args {w : World} {args : List (Val (Dom V F))} {r : Val (Dom V F) × List (Option (Val (Dom V F))) × World}
    (h : tokenizer σ n!"expect" w args = some r) : ∃ t : TId, args = [.int .i32 (tidNumber t : Nat)] := by
  unfold tokenizer at h
  split at h
  · simp at h
  · next k =>
    simp only [↓reduceIte] at h
    cases e : tidOf k with
    | none => rw [e] at h; cases h
    | some t => exact ⟨t, by have := List.find?_some e; rw [of_decide_eq_true this]⟩
  · simp at h
  · simp at h
  · cases h

theorem utf8_args {w : World} {args : List (Val (Dom V F))} {r : Val (Dom V F) × List (Option (Val (Dom V F))) × World}
    (h : tokenizer σ n!"parse_escaped_utf8" w args = some r) :
    ∃ (value : Bytes) (lead : Nat), args = [.str value, .int .i32 (lead : Int)] ∧ (lead = 0 ∨ 0xD800 ≤ lead ∧ lead ≤ 0xDBFF) := by
  unfold tokenizer at h
  split at h
  · simp at h
  · simp at h
  · simp at h
  · next value lead =>
    split at h
    · next hl => exact ⟨value, lead.toNat, by rw [Int.toNat_of_nonneg (by omega)], by omega⟩
    · cases h
  · cases h

/-- A function executed with what is below its rank does what the model does. -/
theorem step {f : Name} (hf : (linesOf f).isSome = true) (w : World) (args : List (Val (Dom V F)))
    (r : Val (Dom V F) × List (Option (Val (Dom V F))) × World) (h : tokenizer σ f w args = some r) :
    ∃ c, code f = some c ∧ c.called (limited σ ops (rank f w)) (enough w.tz) w args = some r := by
  have hlen : w.tz.inp.rest.length < enough w.tz := by unfold enough; omega
  have hlen2 : 2 * w.tz.inp.rest.length + 8 ≤ enough w.tz := Nat.le_refl _
  revert h
  refine linesOf_cases (Q := fun f => tokenizer σ f w args = some r →
    ∃ c, code f = some c ∧ c.called (limited σ ops (rank f w)) (enough w.tz) w args = some r) hf ?_ ?_ ?_ ?_ ?_ ?_ ?_ ?_ ?_ ?_ <;>
    intro h
  · obtain rfl := no_args h (by decide) (by decide) (by decide)
    refine ⟨nextFun, code_of rfl nextFun_text, ?_⟩
    unfold Fun.called
    rw [show rank n!"next" w = 2 from rfl, low_run 2 (by decide +kernel) (next_runs _ w hlen)]
    exact h
  · obtain ⟨t, rfl⟩ := expect_args h
    refine ⟨expectFun, code_of rfl expectFun_text, ?_⟩
    rw [tokenizer_expect] at h
    unfold Fun.called
    rw [show rank n!"expect" w = 3 from rfl, low_run 3 (by decide +kernel) (expect_runs _ t w)]
    exact h
  · obtain rfl := no_args h (by decide) (by decide) (by decide)
    refine ⟨lexIgnoreFun, code_of rfl lexIgnoreFun_text, ?_⟩
    unfold Fun.called
    rw [show rank n!"ignore" w = 2 * w.tz.m + 6 from rfl, limited_ignore_runs _ _ (by omega)]
    rw [tokenizer_ignore] at h
    rw [← h, returned, Option.map_map]
    rfl
  · obtain rfl := no_args h (by decide) (by decide) (by decide)
    refine ⟨identFun, code_of rfl identFun_text, ?_⟩
    unfold Fun.called
    rw [show rank n!"parse_identifier" w = 0 from rfl, low_run 0 (by decide +kernel) (ident_runs _ w hlen)]
    exact h
  · obtain rfl := no_args h (by decide) (by decide) (by decide)
    refine ⟨stringFun, code_of rfl stringFun_text, ?_⟩
    have hq : w.tz.inp.peek = 34 := by
      by_cases hq : w.tz.inp.peek = 34
      · exact hq
      · exact absurd h (by rw [show tokenizer (V := V) (F := F) σ n!"parse_string" w [] = none from if_neg hq]; exact nofun)
    rw [tokenizer_string hq] at h
    unfold Fun.called
    rw [show rank n!"parse_string" w = 1 from rfl, low_run 1 (by decide +kernel) (string_runs _ w hq hlen)]
    exact h
  · obtain ⟨value, lead, rfl, hl⟩ := utf8_args h
    refine ⟨utf8Fun, code_of rfl utf8Fun_text, ?_⟩
    have hr := utf8_runs (σ := σ) (ops := ops) (enough w.tz) value lead w (by unfold enough; omega) hl
    rw [tokenizer_utf8 _ _ (by omega), Int.toNat_natCast] at h
    unfold Fun.called
    rw [show rank n!"parse_escaped_utf8" w = 0 from rfl]
    cases h1 : (lexHex 4 0 w.tz.inp).1 with
    | none =>
      simp only [h1] at h hr
      rw [low_run 0 (by decide +kernel) hr]
      exact h
    | some cp =>
      cases h2 : putCodeUnit value lead cp with
      | none =>
        simp only [h1, h2] at h hr
        rw [low_run 0 (by decide +kernel) hr]
        exact h
      | some q =>
        simp only [h1, h2] at h hr
        rw [low_run 0 (by decide +kernel) hr]
        exact h
  · obtain rfl := no_args h (by decide) (by decide) (by decide)
    refine ⟨numberFun, code_of rfl numberFun_text, ?_⟩
    unfold Fun.called
    rw [show rank n!"parse_number" w = 0 from rfl, low_run 0 (by decide +kernel) (number_runs _ w hlen)]
    exact h
  · obtain rfl := no_args h (by decide) (by decide) (by decide)
    refine ⟨ignoreArrayFun, code_of rfl ignoreArrayFun_text, ?_⟩
    unfold Fun.called
    rw [show rank n!"ignore_array" w = 2 * w.tz.m + 4 from rfl, limited_ignoreArray_runs _ _ (by omega) hlen2]
    rw [tokenizer_array] at h
    rw [← h, returned, Option.map_map]
    rfl
  · obtain rfl := no_args h (by decide) (by decide) (by decide)
    refine ⟨ignoreObjectFun, code_of rfl ignoreObjectFun_text, ?_⟩
    unfold Fun.called
    rw [show rank n!"ignore_object" w = 2 * w.tz.m + 4 from rfl, limited_ignoreObject_runs _ _ (by omega) hlen2]
    rw [tokenizer_object] at h
    rw [← h, returned, Option.map_map]
    rfl
  · obtain rfl := no_args h (by decide) (by decide) (by decide)
    refine ⟨ignoreValueFun, code_of rfl ignoreValueFun_text, ?_⟩
    unfold Fun.called
    rw [show rank n!"ignore_value" w = 2 * w.tz.m + 5 from rfl, limited_ignoreValue_runs _ _ (by omega)]
    rw [tokenizer_value] at h
    rw [← h, returned, Option.map_map]
    rfl

/-- All texts together do what the model does. -/
theorem deep_model (k : Nat) {f : Name} (hf : (linesOf f).isSome = true) (w : World) (hk : rank f w < k)
    (args : List (Val (Dom V F))) : Le (tokenizer σ f w args) (deep σ ops k f w args) := by
  induction k generalizing f w args with
  | zero => omega
  | succ k ih =>
    intro r h
    obtain ⟨c, hc, hr⟩ := step (ops := ops) hf w args r h
    show (code f).bind _ = _
    rw [hc]
    show (c.run (inner σ ops (deep σ ops k)) (enough w.tz) args w).map _ = _
    have := run_le (limited_serves (ops := ops) (rank f w) (T := deep σ ops k) fun g v l hg hr => ih hg v (by omega) l) (enough w.tz) c
      c.body.uses_all args w
    exact (this.map _) r hr

/-- Deeper nesting changes nothing. -/
theorem deep_more (k : Nat) (f : Name) (w : World) (args : List (Val (Dom V F))) :
    Le (deep σ ops k f w args) (deep σ ops (k + 1) f w args) := by
  induction k generalizing f w args with
  | zero => exact Le.none _
  | succ k ih =>
    show Le ((code f).bind _) ((code f).bind _)
    refine (Le.refl _).bind fun c => ?_
    refine Le.map _ (run_le (L := inner σ ops (deep σ ops k)) (F := (inner σ ops (deep σ ops (k + 1))).function) (M := (inner σ ops (deep σ ops (k + 1))).method)
      ⟨?_, fun _ _ _ => Le.refl _⟩ (enough w.tz) c c.body.uses_all args w)
    intro p _ s l
    match p with
    | [f] =>
      show Le (if (linesOf f).isSome then _ else functions σ ops [f] s l) (if (linesOf f).isSome then _ else functions σ ops [f] s l)
      split
      · exact ih f s l
      · exact Le.refl _
    | [] => exact Le.refl _
    | _ :: _ :: _ => exact Le.refl _

/-- Wherever they are called from. -/
theorem whole_serves : Serves (fun _ => true) (runtimeLib σ ops) (whole σ ops).function (whole σ ops).method where
  function := by
    intro p _ s args
    match p with
    | [f] =>
      show Le _ (if (linesOf f).isSome then deep σ ops (rank f s + 1) f s args else functions σ ops [f] s args)
      by_cases k : (linesOf f).isSome = true
      · rw [if_pos k, function_linked k]
        exact deep_model _ k s (by omega) args
      · rw [if_neg k]
        exact Le.refl _
    | [] => exact Le.refl _
    | _ :: _ :: _ => exact Le.refl _
  method := by
    intro f s args
    match args with
    | .dom .tokPtr :: rest =>
      show Le _ (if (linesOf f).isSome then deep σ ops (rank f s + 1) f s rest else (runtimeLib σ ops).method f s (.dom .tokPtr :: rest))
      by_cases k : (linesOf f).isSome = true
      · rw [if_pos k]
        exact deep_model _ k s (by omega) rest
      · rw [if_neg k]
        exact Le.refl _
    | [] | .void :: _ | .undef _ :: _ | .bool _ :: _ | .int _ _ :: _ | .str _ :: _ | .ptr _ :: _ | .arr _ :: _ | .iter _ :: _ |
      .dom (.tok _) :: _ | .dom .current :: _ | .dom .input :: _ | .dom .ctx :: _ | .dom .osPtr :: _ | .dom .os :: _ |
      .dom .params :: _ | .dom .error :: _ | .dom (.val _) :: _ | .dom (.fld _) :: _ => exact Le.refl _

end PG.Cxx
