import Verif.Proofs.CxxLink
/-
How deep the calls of `ignore_array` and `ignore_value` (protogen.hh:541-602) nest: two for each bracket that is open.
-/
set_option autoImplicit false
namespace PG.Cxx
variable {V F : Type} {σ : Bool} {ops : Ops V F} {T : Name → Callee (Dom V F) World} {w : World}

theorem inner_signed : (inner σ ops T).signed = (runtimeLib σ ops).signed := (rfl)
theorem inner_constant : (inner σ ops T).constant = (runtimeLib σ ops).constant := (rfl)
theorem inner_get : (inner σ ops T).get = (runtimeLib σ ops).get := (rfl)
theorem inner_set : (inner σ ops T).set = (runtimeLib σ ops).set := (rfl)
theorem inner_member : (inner σ ops T).member = (runtimeLib σ ops).member := (rfl)
theorem inner_update : (inner σ ops T).update = (runtimeLib σ ops).update := (rfl)
theorem inner_inst : (inner σ ops T).inst = (runtimeLib σ ops).inst := (rfl)
theorem inner_statik : (inner σ ops T).statik = (runtimeLib σ ops).statik := (rfl)
theorem inner_method : (inner σ ops T).method = (runtimeLib σ ops).method := (rfl)
theorem inner_unary : (inner σ ops T).unary = (runtimeLib σ ops).unary := (rfl)
theorem inner_binary : (inner σ ops T).binary = (runtimeLib σ ops).binary := (rfl)
theorem inner_assign : (inner σ ops T).assign = (runtimeLib σ ops).assign := (rfl)
theorem inner_init : (inner σ ops T).init = (runtimeLib σ ops).init := (rfl)
theorem inner_cast : (inner σ ops T).cast = (runtimeLib σ ops).cast := (rfl)
theorem inner_size : (inner σ ops T).size = (runtimeLib σ ops).size := (rfl)
theorem inner_peek (l : List (Val (Dom V F))) : (inner σ ops T).function [n!"peek"] w l = tokenizer σ n!"peek" w l := (rfl)
theorem inner_expect (l : List (Val (Dom V F))) : (inner σ ops T).function [n!"expect"] w l = T n!"expect" w l := (rfl)
theorem inner_ignore_array (l : List (Val (Dom V F))) : (inner σ ops T).function [n!"ignore_array"] w l = T n!"ignore_array" w l := (rfl)
theorem inner_ignore_value (l : List (Val (Dom V F))) : (inner σ ops T).function [n!"ignore_value"] w l = T n!"ignore_value" w l := (rfl)
theorem inner_ignore (l : List (Val (Dom V F))) : (inner σ ops T).function [n!"ignore"] w l = T n!"ignore" w l := (rfl)
attribute [cxx] inner_signed inner_constant inner_get inner_set inner_member inner_update inner_inst inner_statik inner_method inner_unary inner_binary inner_assign inner_init inner_cast inner_size inner_peek inner_expect inner_ignore_array inner_ignore_value inner_ignore

theorem deep_succ (k : Nat) (f : Name) (w : World) (args : List (Val (Dom V F))) : deep σ ops (k + 1) f w args =
    (code f).bind fun c => c.called (inner σ ops (deep σ ops k)) (enough w.tz) w args := (rfl)

/-- So many brackets are open one after the other. -/
def Opens : Nat → Tz → Prop
  | 0, _ => True
  | j + 1, tz => tz.cur.id = .arrs ∧ Opens j tz.next

/-- More depth gives no other result. -/
theorem deep_mono {k j : Nat} (h : k ≤ j) (f : Name) (w : World) (args : List (Val (Dom V F))) :
    Le (deep σ ops k f w args) (deep σ ops j f w args) := by
  induction j with
  | zero => rw [show k = 0 by omega]; exact Le.refl _
  | succ j ih =>
    by_cases e : k = j + 1
    · rw [e]; exact Le.refl _
    · exact (ih (by omega)).trans (deep_more j f w args)

/-- A result is the one of the model, where the model has one. -/
theorem deep_result {k : Nat} {f : Name} (hf : (linesOf f).isSome = true) {w : World} {args : List (Val (Dom V F))}
    {r : Val (Dom V F) × List (Option (Val (Dom V F))) × World} (h : tokenizer σ f w args = some r) :
    deep σ ops k f w args = none ∨ deep σ ops k f w args = some r := by
  cases e : deep σ ops k f w args with
  | none => exact .inl rfl
  | some x =>
    have h1 := deep_mono (Nat.le_max_left k (rank f w + 1)) f w args x e
    have h2 := deep_model (ops := ops) (max k (rank f w + 1)) hf w (by omega) args r h
    rw [h1] at h2
    exact .inr h2

theorem iterate_stuck {D S : Type} {c : St D S → Option (Bool × St D S)} {body : St D S → Option (Flow D × St D S)}
    {step : St D S → Option (St D S)} {n : Nat} {st st' : St D S} (h : c st = some (true, st')) (h2 : body st' = none) :
    iterate c body step n st = none := by
  cases n with
  | zero => rfl
  | succ n => simp only [iterate, h, h2, Option.bind_some, Option.bind_none, ↓reduceIte]

/-- With less depth than that there is no result. -/
theorem deep_stuck (k : Nat) :
    (∀ (j : Nat) (w : World), Opens j w.tz → k ≤ 2 * j → deep σ ops k n!"ignore_value" w [] = none) ∧
    (∀ (j : Nat) (w : World), Opens (j + 1) w.tz → k ≤ 2 * j + 1 → deep σ ops k n!"ignore_array" w [] = none) := by
  induction k with
  | zero => exact ⟨fun _ _ _ _ => rfl, fun _ _ _ _ => rfl⟩
  | succ k ih =>
    constructor
    · intro j w h hk
      obtain ⟨j, rfl⟩ : ∃ i, j = i + 1 := ⟨j - 1, by omega⟩
      rw [deep_succ, code_of rfl ignoreValueFun_text, Option.bind_some]
      have ha := ih.2 j w h (by omega)
      have hc := h.1
      unfold Fun.called
      cxx [ignoreValueFun, hc, ha]
    · intro j w h hk
      rw [deep_succ, code_of rfl ignoreArrayFun_text, Option.bind_some]
      unfold Fun.called
      have he := deep_result (ops := ops) (k := k) (f := n!"expect") rfl (tokenizer_expect (V := V) (F := F) (σ := σ) (w := w) .arrs)
      rw [expect_pos h.1] at he
      rcases he with he | he
      · cxx [ignoreArrayFun, he]
      · have hk0 : k ≠ 0 := by rintro rfl; cases he
        obtain ⟨j, rfl⟩ : ∃ i, j = i + 1 := ⟨j - 1, by omega⟩
        have hv := ih.1 (j + 1) { w with tz := w.tz.next } h.2 (by omega)
        have hc : w.tz.next.cur.id = .arrs := h.2.1
        have hl : ∀ n m, iterate (test (inner σ ops (deep σ ops k)) (.binary n!"!=" (.member (.call (.name n!"peek") .nil) n!"id")
            (.qual [n!"token_id", n!"ARRE"]))) (exec (inner σ ops (deep σ ops k)) m ignoreArrayFunBody1) some n
            ⟨[[], []], { w with tz := w.tz.next }⟩ = none := fun n m =>
          iterate_stuck (st' := ⟨[[], []], { w with tz := w.tz.next }⟩) (by cxx [hc]) (by cxx [ignoreArrayFunBody1, hv])
        cxx [ignoreArrayFun, he, hl]

/-- A bracket. -/
theorem next_bracket {tz : Tz} {l : Bytes} (h : tz.inp.rest = c!"[" :: l) (hl : l.head? ≠ some 10) :
    tz.next.cur.id = .arrs ∧ tz.next.inp.rest = l := by
  have h1 : tz.inp.eof = false := by simp [IStream.eof, h]
  have h2 : tz.inp.peek = c!"[" := by simp [IStream.peek, h]
  have h3 : tz.inp.next.rest = l := by
    cases l with
    | nil => simp [IStream.next, h, IStream.skip]
    | cons b l =>
      have : b ≠ 10 := fun e => hl (by rw [e]; rfl)
      simp [IStream.next, h, IStream.skip, this]
  unfold Tz.next
  rw [lex]
  simp [h1, h2, h3]

theorem opens_brackets (j : Nat) {tz : Tz} {l : Bytes} (hl : l.head? ≠ some 10)
    (h : tz.inp.rest = List.replicate j (c!"[" : Byte) ++ l) : Opens j tz.next := by
  induction j generalizing tz with
  | zero => trivial
  | succ j ih =>
    have := next_bracket (l := List.replicate j (c!"[" : Byte) ++ l) (by rw [h]; rfl)
      (by cases j with
        | zero => exact hl
        | succ j => exact nofun)
    exact ⟨this.1, ih this.2⟩

end PG.Cxx
