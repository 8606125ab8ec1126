import Verif.Proofs.CxxDepth
import Verif.Props.Runtime
/-
C98: the functions of the tokenizer (C86, C87), each of them the C++ text that is parsed and executed, calling each other's texts.
-/
set_option autoImplicit false
namespace PG.Cxx
open PG.Gen
variable {V F : Type} (σ : Bool) (ops : Ops V F)

/-- C98: what is executed for a name is a function with that name. -/
theorem C98_texts (f : Name) (hf : (linesOf f).isSome = true) : (code f).map (·.name) = some f :=
  linesOf_cases (Q := fun f => (code f).map (·.name) = some f) hf
    (congrArg _ (code_of (f := n!"next") rfl nextFun_text)) (congrArg _ (code_of (f := n!"expect") rfl expectFun_text))
    (congrArg _ (code_of (f := n!"ignore") rfl lexIgnoreFun_text))
    (congrArg _ (code_of (f := n!"parse_identifier") rfl identFun_text))
    (congrArg _ (code_of (f := n!"parse_string") rfl stringFun_text))
    (congrArg _ (code_of (f := n!"parse_escaped_utf8") rfl utf8Fun_text))
    (congrArg _ (code_of (f := n!"parse_number") rfl numberFun_text))
    (congrArg _ (code_of (f := n!"ignore_array") rfl ignoreArrayFun_text))
    (congrArg _ (code_of (f := n!"ignore_object") rfl ignoreObjectFun_text))
    (congrArg _ (code_of (f := n!"ignore_value") rfl ignoreValueFun_text))

/-- C98: `next` for every text that is left: the result, and the depth of calls that is enough. -/
theorem C98_next (k : Nat) (w : World) (hk : 3 ≤ k) :
    deep σ ops k n!"next" w [] = some (.dom (.tok w.tz.next.cur), [], { w with tz := w.tz.next }) :=
  deep_model (f := n!"next") k rfl w hk [] _ rfl

/-- C98: `expect` for every text that is left and every kind of token. -/
theorem C98_expect (k : Nat) (t : TId) (w : World) (hk : 4 ≤ k) :
    deep σ ops k n!"expect" w [.int .i32 (tidNumber t)] = some (.bool (w.tz.expect t).1, [], { w with tz := (w.tz.expect t).2 }) :=
  deep_model (f := n!"expect") k rfl w hk _ _ (tokenizer_expect t)

/-- C98: `ignore`, with all that it calls, for every text that is left: it ends, with the result and the state of the model; the
calls nest at most twice for each character that is left, and a few times more. -/
theorem C98_ignore (k : Nat) (w : World) (hk : 2 * w.tz.inp.rest.length + 9 ≤ k) :
    ∃ v : Nat, rcNumber (skipValue w.tz).1 = some v ∧
      deep σ ops k n!"ignore" w [] = some (.int .i32 v, [], { w with tz := (skipValue w.tz).2 }) := by
  have hm : w.tz.m ≤ w.tz.inp.rest.length + 1 := by unfold Tz.m; split <;> omega
  have hf := (ignoreValue_fin (enough w.tz) w.tz (by have := m_enough w.tz; omega)).1
  rw [← skipValue] at hf
  have h : ∃ v, rcNumber (skipValue w.tz).1 = some v := by
    cases hr : (skipValue w.tz).1 with
    | fuel => exact absurd hr hf
    | _ => exact ⟨_, rfl⟩
  obtain ⟨v, hv⟩ := h
  refine ⟨v, hv, deep_model (f := n!"ignore") k rfl w (by show 2 * w.tz.m + 6 < k; omega) [] _ ?_⟩
  rw [tokenizer_ignore, returned, hv]
  rfl

/-- C98: every function of the tokenizer, in every state and with every list of arguments that the model has a result for. -/
theorem C98_linked (k : Nat) (f : Name) (hf : (linesOf f).isSome = true) (w : World) (hk : rank f w < k)
    (args : List (Val (Dom V F))) (r : Val (Dom V F) × List (Option (Val (Dom V F))) × World) (h : tokenizer σ f w args = some r) :
    deep σ ops k f w args = some r :=
  deep_model k hf w hk args r h

/-- C98: whatever depth of calls there is room for, a result is the same. -/
theorem C98_more (k j : Nat) (h : k ≤ j) (f : Name) (w : World) (args : List (Val (Dom V F)))
    (r : Val (Dom V F) × List (Option (Val (Dom V F))) × World) (hr : deep σ ops k f w args = some r) :
    deep σ ops j f w args = some r :=
  deep_mono h f w args r hr

/-- C98: a function that calls the tokenizer (C86 to C89) has with the texts of the tokenizer the result that it has with the
functions of the model. -/
theorem C98_all (c : Fun) (n : Nat) (args : List (Val (Dom V F))) (w : World)
    (r : Val (Dom V F) × List (Val (Dom V F)) × World) (h : c.run (runtimeLib σ ops) n args w = some r) :
    c.run (whole σ ops) n args w = some r :=
  run_le whole_serves n c c.body.uses_all args w r h

/-- C98: no depth is enough for all texts: calls nest as deep as the brackets of the text. -/
theorem C98_depth (k : Nat) :
    ∃ text : Bytes, deep σ ops k n!"ignore" (worldOf text) [] = none ∧
      ∃ j, (deep σ ops j n!"ignore" (worldOf text) []).isSome = true := by
  refine ⟨List.replicate k (c!"[" : Byte), ?_, ?_⟩
  · have ho : Opens k (worldOf (List.replicate k (c!"[" : Byte))).tz := by
      refine opens_brackets k (l := []) (by exact nofun) ?_
      show (IStream.open' _).rest = _
      rw [List.append_nil]
      cases k <;> rfl
    cases k with
    | zero => rfl
    | succ k =>
      rw [deep_succ, code_of rfl lexIgnoreFun_text, Option.bind_some]
      have hv := (deep_stuck (σ := σ) (ops := ops) k).1 (k + 1) _ ho (by omega)
      unfold Fun.called
      cxx [lexIgnoreFun, hv]
  · obtain ⟨v, _, h⟩ := C98_ignore σ ops _ (worldOf (List.replicate k (c!"[" : Byte))) (Nat.le_refl _)
    exact ⟨_, by rw [h]; rfl⟩

/-- `[1,[null]]` is skipped by the texts. -/
example : deep σ ops 40 n!"ignore" (worldOf b!"[1,[null]] 7") [] =
    some (.int .i32 0, [], { worldOf b!"[1,[null]] 7" with tz := (skipValue (worldOf b!"[1,[null]] 7").tz).2 }) ∧
    (skipValue (worldOf b!"[1,[null]] 7").tz).2.cur.value = b!"7" := by
  obtain ⟨v, hv, h⟩ := C98_ignore σ ops 40 (worldOf b!"[1,[null]] 7") (by decide +kernel)
  have : rcNumber (skipValue (worldOf b!"[1,[null]] 7").tz).1 = some 0 := by decide +kernel
  rw [this] at hv
  cases hv
  exact ⟨h, by decide +kernel⟩

end PG.Cxx
