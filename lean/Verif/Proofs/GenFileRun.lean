import Verif.Proofs.GenItemsRun
import Verif.Proofs.ProtoParsed
/-
The other functions of cppgen.cc (cppgen.cc:451-603), executed.
-/
set_option autoImplicit false
namespace PG.Cxx.Throw
open PG.Proto PG.Gen Maker

variable {s : Bool} {w : Given}

theorem binop_gt {D S : Type} {L : Lib D S} {u : S} (t r : IT) (x y : Int) : binop L n!">" (.int t x) (.int r y) u =
    some (.bool (decide (IT.convert L.signed (IT.common t r) r y < IT.convert L.signed (IT.common t r) t x)), u) := by
  rw [binop_int _ _ _ _ _ (by decide)]; rfl
attribute [cxt] binop_gt
theorem convert_64 : IT.convert s .u64 .i32 64 = 64 := by cases s <;> rfl

/-! ### `generateEntity`, `generateEntityWrapper`, `generateMessage` -/

theorem entity_runs (n : Nat) (c : Gen.Ctx) (o : List Nat) (m : Message) (st : Printed) :
    run (genLib s w) n Maker.entityFun [.dom (.ctx c o), .dom (.msg m)] st =
      (does w.rt st (generateEntity m)).bind fun r => .ok (.void, [.dom (.ctx c o), .dom (.msg m)], r.2) := by
  unfold generateEntity structName
  cxg [Maker.entityFun]
  refine sameDoes fun r => ?_
  cxg [Maker.entityFun]
  refine sameDoes fun r => ?_
  cxg [Maker.entityFun]

theorem entityWrapper_runs (n : Nat) (c : Gen.Ctx) (o : List Nat) (m : Message) (st : Printed) :
    run (genLib s w) n Maker.entityWrapperFun [.dom (.ctx c o), .dom (.msg m)] st =
      (does w.rt st (generateEntityWrapper m)).bind fun r => .ok (.void, [.dom (.ctx c o), .dom (.msg m)], r.2) := by
  unfold generateEntityWrapper
  cxg [Maker.entityWrapperFun]

theorem generateMessage_runs (n : Nat) (c : Gen.Ctx) (o : List Nat) (m : Message) (st : Printed) (hl : m.fields.length < 18446744073709551616)
    (hv : ∀ f ∈ m.fields, Valid w.msgs f) :
    run (genLib s w) n Maker.messageFun [.dom (.ctx c o), .dom (.msg m)] st =
      (does w.rt st (generateMessage w.msgs c m)).bind fun r => .ok (.void, [.dom (.ctx c o), .dom (.msg m)], r.2) := by
  unfold generateMessage maxFields
  by_cases h : m.fields.length > 64
  · have h2 : (64 : Int) < m.fields.length := by omega
    cxg [Maker.messageFun, h, h2, List.length_map, convert_64, convert_self]
    rw [show decInt 64 = b!"64" from by decide +kernel]
    cxg [GExc.text, List.append_assoc, List.cons_append, List.nil_append]
  · have h2 : ¬ (64 : Int) < m.fields.length := by omega
    have h3 : m.fields.length < 2147483648 := by omega
    have k1 := fun st => gen_generateModel (s := s) (w := w) st c o m hv
    cxg [Maker.messageFun, h, h2, k1, h3, List.length_map, convert_64, convert_self]
    repeat (refine sameDoes fun _ => ?_; cxg [Maker.messageFun, k1, h3])

/-! ### `makeGuard` -/

/-- Whether a character is kept in the guard, as the comparisons of `char` decide it. -/
theorem guard_test (c : Byte) :
    (((65 ≤ IT.ofByte s c ∧ IT.ofByte s c ≤ 90) ∨ (97 ≤ IT.ofByte s c ∧ IT.ofByte s c ≤ 122)) ∨ (48 ≤ IT.ofByte s c ∧ IT.ofByte s c ≤ 57)) ∨
      IT.ofByte s c = 95 ↔ (c!"A" ≤ c ∧ c ≤ c!"Z") ∨ (c!"a" ≤ c ∧ c ≤ c!"z") ∨ (c!"0" ≤ c ∧ c ≤ c!"9") ∨ c = c!"_" := by
  obtain ⟨⟨k⟩⟩ := c
  revert k
  cases s <;> decide +kernel

/-- The variables of `makeGuard` in its loop. -/
def guardVars (s : Bool) (p : Bytes) (st : Printed) (r : Bytes) (a : Bytes) : St GVal Printed :=
  ⟨[[(n!"it", .iter (r.map fun c => .int .char (IT.ofByte s c)))], [(n!"out", .str a)], [(n!"fileName", .str p)]], st⟩

theorem guard_runs (n : Nat) (p : Bytes) (st : Printed) (hn : p.length < n) :
    run (genLib s w) n Maker.guardFun [.str p] st = .ok (.str (makeGuard p), [.str p], st) := by
  unfold makeGuard
  cxg [Maker.guardFun]
  change (iterate _ _ _ n (guardVars s p st p b!"GUARD_")).bind _ = _
  refine iterate_list (β := Val GVal × List (Val GVal) × Printed) (guardVars s p st)
    (fun a c => .ok (.next, a ++ [if (c!"A" ≤ c ∧ c ≤ c!"Z") ∨ (c!"a" ≤ c ∧ c ≤ c!"z") ∨ (c!"0" ≤ c ∧ c ≤ c!"9") ∨ c = c!"_" then c else c!"_"]))
    (fun _ _ => True)
    (fun r a => .ok (.str (a ++ r.map fun c => if (c!"A" ≤ c ∧ c ≤ c!"Z") ∨ (c!"a" ≤ c ∧ c ≤ c!"z") ∨ (c!"0" ≤ c ∧ c ≤ c!"9") ∨ c = c!"_"
      then c else c!"_"), [.str p], st)) _ ?_ ?_ ?_ ?_ ?_ ?_ n p _ trivial hn
  · intro xs a
    cxg [guardVars, List.length_map]
  · intro c xs a _
    cxg [guardVars, Maker.guardFunBody1]
    have ht := guard_test (s := s) c
    by_cases hc : (c!"A" ≤ c ∧ c ≤ c!"Z") ∨ (c!"a" ≤ c ∧ c ≤ c!"z") ∨ (c!"0" ≤ c ∧ c ≤ c!"9") ∨ c = c!"_"
    · rw [if_pos (by simpa only [Bool.or_eq_true, Bool.and_eq_true, decide_eq_true_eq] using ht.mpr hc), if_pos hc]
      cxg []
    · rw [if_neg (by simpa only [Bool.or_eq_true, Bool.and_eq_true, decide_eq_true_eq] using fun h => hc (ht.mp h)), if_neg hc]
      cxg []
  · intro c xs a
    cxg [guardVars]
  · intros; trivial
  · intro a _
    cxg [guardVars, Maker.guardFun, List.append_nil]
  · intro c xs a _
    cxg [after, List.append_assoc, List.singleton_append]

end PG.Cxx.Throw
