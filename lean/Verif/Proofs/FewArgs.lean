import Verif.Props.Printer
/-
Every call of the printer gives a template as many arguments as it has holes, however the generator ends.
-/
set_option autoImplicit false
namespace PG.Gen
open PG.Proto

/-- A part of the runtime without arguments, or a template with as many as it takes; not the end of the file. -/
def Apt (t : Tpl) (n : Nat) : Prop := (∃ p, t = .runtime p ∧ n = 0) ∨ ((t, n) ∈ usedTemplates ∧ t ≠ .endGuard)

theorem apt_runtime (p : Part) : Apt (.runtime p) 0 := .inl ⟨p, rfl, rfl⟩

theorem apt_used {t : Tpl} {n : Nat} (h : (usedTemplates.contains (t, n) && decide (t ≠ .endGuard)) = true) : Apt t n := by
  rw [Bool.and_eq_true] at h
  exact .inr ⟨by simpa using h.1, of_decide_eq_true h.2⟩

/-- All calls are such. -/
def Few {α : Type} (e : Emit α) : Prop := ∀ c ∈ e.calls, Apt c.tpl c.args.length

namespace Few
variable {α β : Type}

theorem pure (a : α) : Few (Emit.pure a) := fun _ h => (nomatch h)
theorem mpure (a : α) : Few (Pure.pure a : Emit α) := fun _ h => (nomatch h)
theorem lift (r : Res α) : Few (Emit.lift r) := fun _ h => (nomatch h)
theorem put (t : Tpl) {args : List Bytes} (h : Apt t args.length) : Few (Emit.put t args) := by
  intro c hc
  rcases List.mem_cons.mp hc with rfl | hc
  · exact h
  · cases hc

theorem bind {e : Emit α} {f : α → Emit β} (he : Few e) (hf : ∀ a, Few (f a)) : Few (e.bind f) := by
  intro c hc
  unfold Emit.bind at hc
  split at hc
  · rcases List.mem_append.mp hc with h | h
    · exact he c h
    · exact hf _ c h
  · exact he c hc
  · exact he c hc

theorem mbind {e : Emit α} {f : α → Emit β} (he : Few e) (hf : ∀ a, Few (f a)) : Few (e >>= f) := bind he hf

theorem ite {p : Prop} [Decidable p] {a b : Emit α} (ha : Few a) (hb : Few b) : Few (if p then a else b) := by
  split <;> assumption

end Few

/-- Steps of a function that prints. -/
macro "few" : tactic => `(tactic| repeat (first
  | assumption
  | exact Few.pure _
  | exact Few.mpure _
  | exact Few.lift _
  | exact Few.put _ (by simp only [List.length_cons, List.length_nil, Nat.reduceAdd]; first | assumption | exact apt_runtime _ | exact apt_used (by decide))
  | refine Few.bind ?_ fun _ => ?_
  | refine Few.mbind ?_ fun _ => ?_
  | refine Few.ite ?_ ?_))

theorem forFields_few {f : Field → Emit Unit} (h : ∀ x, Few (f x)) (fs : List Field) : Few (forFields f fs) := by
  induction fs with
  | nil => exact Few.pure _
  | cons x fs ih => exact Few.bind (h x) fun _ => ih

theorem namespaceLoop_few (o : Bool) (a b : Bytes) : Few (namespaceLoop o a b) := by
  induction b generalizing a with
  | nil => unfold namespaceLoop; few
  | cons c b ih =>
    unfold namespaceLoop
    split
    · exact Few.bind (Few.put _ (by simp only [List.length_cons, List.length_nil, Nat.reduceAdd]; cases o <;> exact apt_used (by decide))) fun _ => ih _
    · exact ih _

theorem generateNamespace_few (m : Message) (o : Bool) : Few (generateNamespace m o) := by
  have := namespaceLoop_few o [] (m.package ++ b!".")
  unfold generateNamespace
  few

theorem generateModel_few (msgs : List Message) (ctx : Ctx) (m : Message) : Few (generateModel msgs ctx m) := by
  have h1 := generateNamespace_few m true
  have h2 := generateNamespace_few m false
  have h3 := forFields_few (f := fun f => do
    let type ← Emit.lift (fieldNativeType msgs f ctx.useLists)
    Emit.put .structField [type, f.name]) (fun _ => by few) m.fields
  unfold generateModel
  few

theorem readItems_few (i : Nat) (fs : List Field) : Few (readItems i fs) := by
  induction fs generalizing i with
  | nil => unfold readItems; few
  | cons f fs ih =>
    have h1 := ih i
    have h2 := ih (i + 1)
    unfold readItems
    few

theorem writeItems_few (ctx : Ctx) (fs : List Field) : Few (writeItems ctx fs) := by
  induction fs with
  | nil => unfold writeItems; few
  | cons f fs ih =>
    unfold writeItems
    few

theorem indexItems_few (ctx : Ctx) (i : Nat) (fs : List Field) : Few (indexItems ctx i fs) := by
  induction fs generalizing i with
  | nil => unfold indexItems; few
  | cons f fs ih =>
    have h1 := ih i
    have h2 := ih (i + 1)
    unfold indexItems
    few

theorem genRead_few (m : Message) (n : Bytes) (p : Bool) : Few (genRead m n p) := by
  have := readItems_few 0 m.fields
  unfold genRead
  few

theorem genWrite_few (ctx : Ctx) (m : Message) (n : Bytes) (p : Bool) : Few (genWrite ctx m n p) := by
  have := writeItems_few ctx m.fields
  unfold genWrite
  few

theorem genSimple_few {a b c d : Tpl} (ha : Apt a 1) (hb : Apt b 1) (hc : Apt c 1) (hd : Apt d 0) (m : Message) (n : Bytes) :
    Few (genSimple a b c d m n) := by
  have := forFields_few (f := fun f => Emit.put c [f.name]) (fun _ => by few) m.fields
  unfold genSimple
  few

theorem genIndex_few (ctx : Ctx) (m : Message) (p : Bool) : Few (genIndex ctx m p) := by
  have := indexItems_few ctx 0 m.fields
  have h : Apt (if ctx.obfuscate then .indexHeaderObf else .indexHeader) 0 := by cases ctx.obfuscate <;> exact apt_used (by decide)
  unfold genIndex
  few

theorem generateModelWrapper_few (ctx : Ctx) (m : Message) : Few (generateModelWrapper ctx m) := by
  unfold generateModelWrapper
  repeat (first
    | exact genRead_few _ _ _ | exact genWrite_few _ _ _ _ | exact genSimple_few (apt_used (by decide)) (apt_used (by decide)) (apt_used (by decide)) (apt_used (by decide)) _ _ | exact genIndex_few _ _ _
    | exact Few.lift _ | exact Few.put _ (by simp only [List.length_cons, List.length_nil, Nat.reduceAdd]; first | assumption | exact apt_runtime _ | exact apt_used (by decide)) | refine Few.mbind ?_ fun _ => ?_)

theorem generateEntity_few (m : Message) : Few (generateEntity m) := by
  have h1 := generateNamespace_few m true
  have h2 := generateNamespace_few m false
  unfold generateEntity
  few

theorem generateEntityWrapper_few (m : Message) : Few (generateEntityWrapper m) := by
  unfold generateEntityWrapper
  few

theorem generateMessage_few (msgs : List Message) (ctx : Ctx) (m : Message) : Few (generateMessage msgs ctx m) := by
  have h1 := generateModel_few msgs ctx m
  have h2 := generateModelWrapper_few ctx m
  have h3 := generateEntity_few m
  have h4 := generateEntityWrapper_few m
  unfold generateMessage
  few

theorem generateInclusions_few (msgs : List Message) : Few (generateInclusions msgs) := by
  unfold generateInclusions
  few

theorem generateAll_few (msgs : List Message) (ctx : Ctx) (is : List Nat) : Few (generateAll msgs ctx is) := by
  induction is with
  | nil => unfold generateAll; few
  | cons i is ih =>
    have h := generateMessage_few msgs ctx
    unfold generateAll
    split
    · exact Few.bind (Few.pure _) fun _ => ih
    · exact Few.bind (h _) fun _ => ih

/-- A function that prints the end of the file last, when it succeeds, and nowhere else. -/
def Ends (g : Bytes) (e : Emit Unit) : Prop :=
  (e.res ≠ .ok () ∧ Few e) ∨ (e.res = .ok () ∧ ∃ cs, e.calls = cs ++ [⟨.endGuard, [g]⟩] ∧ ∀ c ∈ cs, Apt c.tpl c.args.length)

theorem ends_bind {α : Type} {g : Bytes} {e : Emit α} {f : α → Emit Unit} (he : Few e) (hf : ∀ a, Ends g (f a)) : Ends g (e.bind f) := by
  cases hr : e.res with
  | ok a =>
    have h1 : (e.bind f).res = (f a).res := by unfold Emit.bind; rw [hr]
    have h2 : (e.bind f).calls = e.calls ++ (f a).calls := by unfold Emit.bind; rw [hr]
    rcases hf a with ⟨h, hw⟩ | ⟨h, cs, hc, hw⟩
    · refine .inl ⟨by rw [h1]; exact h, fun c hc => ?_⟩
      rw [h2] at hc
      rcases List.mem_append.mp hc with h | h
      · exact he c h
      · exact hw c h
    · refine .inr ⟨by rw [h1]; exact h, e.calls ++ cs, by rw [h2, hc, List.append_assoc], fun c hc => ?_⟩
      rcases List.mem_append.mp hc with h | h
      · exact he c h
      · exact hw c h
  | exc x =>
    have h2 : e.bind f = ⟨e.calls, .exc x⟩ := by unfold Emit.bind; rw [hr]
    rw [h2]
    exact .inl ⟨fun h => (nomatch h), he⟩
  | running =>
    have h2 : e.bind f = ⟨e.calls, .running⟩ := by unfold Emit.bind; rw [hr]
    rw [h2]
    exact .inl ⟨fun h => (nomatch h), he⟩

theorem ends_last (g : Bytes) : Ends g (Emit.put .endGuard [g]) := .inr ⟨rfl, [], rfl, fun _ h => (nomatch h)⟩

theorem generateFile_ends (n : Nat) (fileName : Bytes) (msgs : List Message) (ctx : Ctx) : Ends (makeGuard fileName) (generateFile n fileName msgs ctx) := by
  have h := generateAll_few msgs ctx
  unfold generateFile
  refine ends_bind (Few.put _ (apt_used (by simp only [List.length_cons, List.length_nil, Nat.reduceAdd]; decide))) fun _ => ?_
  refine ends_bind (Few.lift _) fun _ => ?_
  exact ends_bind (h _) fun _ => ends_last _

/-- However the generator ends. -/
theorem generate_ends_with (n : Nat) (fileName : Bytes) (t : Tree) : Ends (makeGuard fileName) (generate n fileName t) := by
  unfold generate
  refine ends_bind (Few.lift _) fun _ => ?_
  exact ends_bind (generateInclusions_few t.messages) fun _ => generateFile_ends n fileName t.messages _

/-- All calls are of templates with as many arguments as they take. -/
theorem generate_used (n : Nat) (fileName : Bytes) (t : Tree) : ∀ c ∈ (generate n fileName t).calls,
    (∃ p, c.tpl = .runtime p ∧ c.args.length = 0) ∨ (c.tpl, c.args.length) ∈ usedTemplates := by
  have key : ∀ c : Call, Apt c.tpl c.args.length →
      (∃ p, c.tpl = .runtime p ∧ c.args.length = 0) ∨ (c.tpl, c.args.length) ∈ usedTemplates := by
    rintro c (h | h)
    · exact .inl h
    · exact .inr h.1
  intro c hc
  rcases generate_ends_with n fileName t with ⟨_, h⟩ | ⟨_, cs, e, h⟩
  · exact key c (h c hc)
  · rw [e] at hc
    rcases List.mem_append.mp hc with hc | hc
    · exact key c (h c hc)
    · rcases List.mem_cons.mp hc with rfl | hc
      · exact .inr (by simp [usedTemplates])
      · cases hc

theorem generate_args (n : Nat) (fileName : Bytes) (t : Tree) : ∀ c ∈ (generate n fileName t).calls, c.args.length ≤ 3 := by
  intro c hc
  rcases generate_used n fileName t c hc with ⟨p, _, h⟩ | h
  · omega
  · have hu : ∀ x ∈ usedTemplates, x.2 ≤ 3 := by decide
    exact hu _ h

end PG.Gen
