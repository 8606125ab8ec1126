import Verif.Spec.Report
import Verif.Model.Main
import Verif.Proofs.GenTree
/-
What the exceptions of the generator say is true of the schema.
-/
set_option autoImplicit false
namespace PG.Gen
open PG.Proto

/-- An exception has this property. -/
def Raises {α : Type} (r : Res α) (P : GExc → Prop) : Prop := ∀ e, r = .exc e → P e

section
variable {α β : Type} {P : GExc → Prop}

theorem Raises.ok (a : α) : Raises (.ok a) P := nofun

theorem Raises.rbind {m : Res α} {f : α → Res β} (h : Raises m P) (hf : ∀ a, m = .ok a → Raises (f a) P) :
    Raises (m.bind f) P := by
  cases m with
  | ok a => exact hf a rfl
  | exc e => intro e' he; injection he with he; exact he ▸ h e rfl
  | running => nofun

theorem Raises.bind {m : Emit α} {f : α → Emit β} (h : Raises m.res P) (hf : ∀ a, m.res = .ok a → Raises (f a).res P) :
    Raises (m.bind f).res P := by
  unfold Emit.bind
  cases hm : m.res with
  | ok a => exact hf a hm
  | exc e => intro e' he; injection he with he; exact he ▸ h e hm
  | running => nofun

end

/-- The exception reports a fault of the schema. -/
def Reported (t : Tree) (e : GExc) : Prop := Fault t e.text e.line e.col

theorem getBool_raises {P : GExc → Prop} (m : OptMap) (n : Bytes) (d : Bool)
    (h : ∀ o, m.find n = some o → o.type ≠ .boolean → P ⟨.notBoolean, n, o.line, 1⟩) : Raises (getBool m n d) P := by
  unfold getBool
  split
  · exact .ok _
  · rename_i o ho
    split
    · intro e he; injection he with he; subst he; exact h o ho (by assumption)
    · exact .ok _

section
variable {t : Tree}

theorem fileCtx_raises : Raises (fileCtx t.options) (Reported t) := by
  refine .rbind (getBool_raises _ _ _ fun o ho ht => ?_) fun _ _ => .rbind (getBool_raises _ _ _ fun o ho ht => ?_) fun _ _ =>
    .rbind (getBool_raises _ _ _ fun o ho ht => ?_) fun _ _ => .ok _
  · exact .fileOption (.inl rfl) ho ht
  · exact .fileOption (.inr (.inl rfl)) ho ht
  · exact .fileOption (.inr (.inr rfl)) ho ht

variable {m : Message} (hm : m ∈ t.messages)
include hm

theorem isTransient_raises {f : Field} (hf : f ∈ m.fields) : Raises (isTransient f) (Reported t) :=
  getBool_raises _ _ _ fun _ ho ht => .transient hm hf ho ht

omit hm in
theorem isTransient_false {f : Field} (h : isTransient f = .ok false) : Persistent f = true := by
  have ht := getBool_ok_type h
  have h := h
  unfold isTransient at h
  rw [getBool_ok ht] at h
  injection h with h
  unfold Persistent
  cases ho : f.options.find b!"transient" with
  | none => rfl
  | some o => rw [ho] at h; simp only at h ⊢; rw [bne, h]; rfl

theorem jsonName_raises {f : Field} (hf : f ∈ m.fields) (hp : Persistent f = true) : Raises (jsonName f) (Reported t) := by
  refine .rbind ?_ fun n hn => ?_
  · unfold getString
    split
    · exact .ok _
    · rename_i o ho
      split
      · rename_i ht
        intro e he; injection he with he; subst he; exact .name hm hf hp ho ht
      · exact .ok _
  · have hg : n = givenName f := by
      unfold getString at hn
      unfold givenName
      split at hn
      · rename_i ho
        injection hn with hn; rw [ho, hn]
      · rename_i o ho
        split at hn
        · cases hn
        · injection hn with hn; rw [ho, ← hn]
    split
    · rename_i hq
      intro e he; injection he with he; subst he
      refine .quotes hm hf hp ?_
      rw [← hg]
      obtain ⟨c, hc, hq⟩ := List.any_eq_true.mp hq
      simp only [Bool.or_eq_true, decide_eq_true_eq] at hq
      rcases hq with rfl | rfl
      · exact .inl hc
      · exact .inr hc
    · exact .ok _

theorem readItems_raises (fs : List Field) (i : Nat) (h : ∀ f ∈ fs, f ∈ m.fields) : Raises (readItems i fs).res (Reported t) := by
  induction fs generalizing i with
  | nil => exact .ok _
  | cons f fs ih =>
    have hr : ∀ g ∈ fs, g ∈ m.fields := fun g hg => h g (List.mem_cons_of_mem _ hg)
    rw [readItems]
    refine .bind (isTransient_raises hm (h f List.mem_cons_self)) fun b _ => ?_
    split
    · exact ih i hr
    · exact .bind (.ok _) fun _ _ => ih _ hr

theorem writeItems_raises (ctx : Ctx) (fs : List Field) (h : ∀ f ∈ fs, f ∈ m.fields) :
    Raises (writeItems ctx fs).res (Reported t) := by
  induction fs with
  | nil => exact .ok _
  | cons f fs ih =>
    have hr : ∀ g ∈ fs, g ∈ m.fields := fun g hg => h g (List.mem_cons_of_mem _ hg)
    have hf := h f List.mem_cons_self
    rw [writeItems]
    refine .bind (isTransient_raises hm hf) fun b hb => ?_
    split
    · exact ih hr
    · rename_i hb'
      have hp : Persistent f = true := isTransient_false (by rw [← Bool.eq_false_iff.mpr hb']; exact lift_res_ok hb)
      exact .bind (jsonName_raises hm hf hp) fun _ _ => .bind (.ok _) fun _ _ => ih hr

theorem indexItems_raises (ctx : Ctx) (fs : List Field) (i : Nat) (h : ∀ f ∈ fs, f ∈ m.fields) :
    Raises (indexItems ctx i fs).res (Reported t) := by
  induction fs generalizing i with
  | nil => exact .ok _
  | cons f fs ih =>
    have hr : ∀ g ∈ fs, g ∈ m.fields := fun g hg => h g (List.mem_cons_of_mem _ hg)
    have hf := h f List.mem_cons_self
    rw [indexItems]
    refine .bind (isTransient_raises hm hf) fun b hb => ?_
    split
    · exact ih _ hr
    · rename_i hb'
      have hp : Persistent f = true := isTransient_false (by rw [← Bool.eq_false_iff.mpr hb']; exact lift_res_ok hb)
      exact .bind (jsonName_raises hm hf hp) fun _ _ => .bind (.ok _) fun _ _ => ih _ hr

theorem isPersistent_raises (fs : List Field) (h : ∀ f ∈ fs, f ∈ m.fields) : Raises (isPersistent fs) (Reported t) := by
  induction fs with
  | nil => exact .ok _
  | cons f fs ih =>
    rw [isPersistent]
    refine .rbind (isTransient_raises hm (h f List.mem_cons_self)) fun b _ => ?_
    split
    · exact ih fun g hg => h g (List.mem_cons_of_mem _ hg)
    · exact .ok _

omit hm in
theorem Throws.raises {α : Type} {r : Res α} {P : GExc → Prop} (h : Throws r []) : Raises r P :=
  fun e he => absurd (h.2 e he) (by simp)

omit hm in
theorem forFields_raises {f : Field → Emit Unit} {P : GExc → Prop} (fs : List Field) (h : ∀ x ∈ fs, Raises (f x).res P) :
    Raises (forFields f fs).res P := by
  induction fs with
  | nil => exact .ok _
  | cons x fs ih =>
    exact .bind (h x List.mem_cons_self) fun _ _ => ih fun y hy => h y (List.mem_cons_of_mem _ hy)

omit hm in
theorem fieldNativeType_raises {P : GExc → Prop} {msgs : List Message} {f : Field} (hl : FieldLinked msgs f) (u : Bool) :
    Raises (fieldNativeType msgs f u) P := by
  refine .rbind ?_ fun a _ => ?_
  · unfold valueType
    split
    · exact .ok _
    · exact .ok _
    · rename_i hid
      obtain ⟨i, m, h1, h2⟩ := hl hid
      unfold nativeType
      rw [h1, Option.bind_some, h2]
      exact .ok _
  · split
    · exact .ok _
    · split <;> exact .ok _

theorem generateMessage_raises (ctx : Ctx) (hl : ∀ f ∈ m.fields, FieldLinked t.messages f) :
    Raises (generateMessage t.messages ctx m).res (Reported t) := by
  unfold generateMessage
  by_cases hx : m.fields.length > maxFields
  · rw [if_pos hx]
    intro e he; injection he with he; subst he
    exact .tooMany hm hx
  · rw [if_neg hx]
    refine .bind (.ok _) fun _ _ => .bind ?_ fun _ _ => .bind ?_ fun _ _ => .bind ?_ fun _ _ => .ok _
    · refine .bind (namespace_throws _ _ _).raises fun _ _ => .bind (.ok _) fun _ _ => .bind ?_ fun _ _ =>
        .bind (.ok _) fun _ _ => (namespace_throws _ _ _).raises
      exact forFields_raises _ fun f hf => .bind (fieldNativeType_raises (hl f hf) _) fun _ _ => .ok _
    · refine .bind (isPersistent_raises hm _ fun _ h => h) fun p _ => .bind (.ok _) fun _ _ => .bind ?_ fun _ _ =>
        .bind ?_ fun _ _ => .bind (genSimple_throws ..).raises fun _ _ => .bind (genSimple_throws ..).raises fun _ _ =>
        .bind (genSimple_throws ..).raises fun _ _ => .bind (genSimple_throws ..).raises fun _ _ => .bind ?_ fun _ _ => .ok _
      · unfold genRead
        split
        · exact .ok _
        · exact .bind (.ok _) fun _ _ => .bind (readItems_raises hm _ _ fun _ h => h) fun _ _ => .ok _
      · unfold genWrite
        split
        · exact .ok _
        · exact .bind (.ok _) fun _ _ => .bind (writeItems_raises hm _ _ fun _ h => h) fun _ _ => .ok _
      · unfold genIndex
        split
        · exact .ok _
        · exact .bind (.ok _) fun _ _ => .bind (indexItems_raises hm _ _ _ fun _ h => h) fun _ _ => .ok _
    · exact .bind (namespace_throws _ _ _).raises fun _ _ => .bind (.ok _) fun _ _ => (namespace_throws _ _ _).raises

end

/-! ### Circular references -/

/-- The exception names a message that reaches itself. -/
def Named (msgs : List Message) (e : GExc) : Prop :=
  ∃ i, Reaches msgs i i ∧ e = ⟨.circular, nameAt msgs i, 0, 0⟩

section
variable {msgs : List Message}

theorem sortFields_named {go : Nat → SortSt → Res SortSt}
    (hok : ∀ r st st', go r st = .ok st' → st'.pending = st.pending)
    (hgo : ∀ r st e, Above msgs st r → go r st = .exc e → Named msgs e) {m : Nat} :
    ∀ (fs : List Field) (st : SortSt) (e : GExc), (∀ f ∈ fs, ∀ r, f.type.ref = some r → Refers msgs m r) →
      (∀ p ∈ st.pending, p = m ∨ Reaches msgs p m) → sortFields go fs st = .exc e → Named msgs e
  | [], _, _, _, _, h => by cases h
  | f :: rest, st, e, hf, hp, h => by
    rw [sortFields] at h
    have hf' : ∀ g ∈ rest, ∀ r, g.type.ref = some r → Refers msgs m r := fun g hg => hf g (List.mem_cons_of_mem _ hg)
    cases hr : f.type.ref with
    | none => rw [hr] at h; exact sortFields_named hok hgo rest st e hf' hp h
    | some r =>
      rw [hr] at h
      dsimp only at h
      by_cases ho : r ∈ st.output
      · rw [if_pos ho] at h; exact sortFields_named hok hgo rest st e hf' hp h
      rw [if_neg ho] at h
      have href := hf f List.mem_cons_self r hr
      cases hg : go r st with
      | running => rw [hg] at h; cases h
      | exc e' =>
        rw [hg] at h
        injection h with h
        subst h
        refine hgo r st _ (fun p hpp => ?_) hg
        rcases hp p hpp with rfl | hpm
        · exact .one href
        · exact hpm.trans (.one href)
      | ok st1 =>
        rw [hg] at h
        exact sortFields_named hok hgo rest st1 e hf' (by rw [hok _ _ _ hg]; exact hp) h

theorem sortMessage_named : ∀ (n m : Nat) (st : SortSt) (e : GExc), Above msgs st m → sortMessage msgs n m st = .exc e →
    Named msgs e
  | 0, _, _, _, _, h => by cases h
  | n + 1, m, st, e, ha, h => by
    rw [sortMessage] at h
    by_cases hp : m ∈ st.pending
    · rw [if_pos hp] at h; injection h with h; subst h; exact ⟨m, ha m hp, rfl⟩
    rw [if_neg hp] at h
    by_cases ho : m ∈ st.output
    · rw [if_pos ho] at h; cases h
    rw [if_neg ho] at h
    cases hs : sortFields (sortMessage msgs n) (fieldsAt msgs m) { st with pending := m :: st.pending } with
    | ok st1 => rw [hs] at h; cases h
    | running => rw [hs] at h; cases h
    | exc e' =>
      rw [hs] at h
      injection h with h
      subst h
      refine sortFields_named (m := m) (fun r a b hab => (sortMessage_ok n r a b hab).1.1)
        (fun r st e => sortMessage_named n r st e) _ _ _ (fun f hf r hr => fieldsAt_refers hf hr) ?_ hs
      intro p hpp
      rcases List.mem_cons.mp hpp with rfl | hpp
      · exact Or.inl rfl
      · exact Or.inr (ha p hpp)

theorem sortLoop_named (n : Nat) : ∀ (l : List Nat) (st : SortSt) (e : GExc), st.pending = [] →
    sortLoop msgs n l st = .exc e → Named msgs e
  | [], _, _, _, h => by cases h
  | m :: rest, st, e, hp, h => by
    rw [sortLoop] at h
    cases hs : sortMessage msgs n m st with
    | running => rw [hs] at h; cases h
    | exc e' =>
      rw [hs] at h
      injection h with h
      subst h
      exact sortMessage_named n m st _ (by intro p hpp; rw [hp] at hpp; cases hpp) hs
    | ok st1 =>
      rw [hs] at h
      exact sortLoop_named n rest st1 e ((sortMessage_ok n m st st1 hs).1.1.trans hp) h

theorem reaches_lt {i j : Nat} (h : Reaches msgs i j) : i < msgs.length := by
  cases h with
  | one h => exact refers_lt h
  | more h _ => exact refers_lt h

theorem sortAll_named {t : Tree} {n : Nat} : Raises (sortAll t.messages n) (Reported t) := by
  intro e h
  unfold sortAll at h
  cases hs : sortLoop t.messages n (List.range t.messages.length) { output := [], pending := [] } with
  | ok st => rw [hs] at h; cases h
  | running => rw [hs] at h; cases h
  | exc e' =>
    rw [hs] at h
    injection h with h
    subst h
    obtain ⟨i, h1, rfl⟩ := sortLoop_named n _ _ _ rfl hs
    have hi := List.getElem?_eq_getElem (reaches_lt h1)
    have : nameAt t.messages i = (t.messages[i]'(reaches_lt h1)).name := by unfold nameAt; rw [hi]; rfl
    unfold Reported GExc.text
    dsimp only
    rw [this]
    exact .circular hi h1

end

theorem generate_reported {n : Nat} {fileName : Bytes} {t : Tree} (hl : ∀ m ∈ t.messages, ∀ f ∈ m.fields, FieldLinked t.messages f) :
    Raises (generate n fileName t).res (Reported t) := by
  intro e h
  rcases generate_exc h with h | ⟨-, h⟩ | ⟨-, -, m, hm, h⟩
  · exact fileCtx_raises e h
  · exact sortAll_named e h
  · exact generateMessage_raises hm _ (hl m hm) e h

/-- Sorting the fields neither adds nor removes a fault. -/
theorem fault_sort {t : Tree} {x : Bytes} {l c : Nat} (h : Fault (sortTree t) x l c) : Fault t x l c := by
  have key : ∀ m ∈ (sortTree t).messages, ∃ m' ∈ t.messages, m'.name = m.name ∧ m'.fields.length = m.fields.length ∧
      ∀ f ∈ m.fields, f ∈ m'.fields := by
    intro m hm
    obtain ⟨m', hm', rfl⟩ := List.mem_map.mp hm
    exact ⟨m', hm', rfl, (sortByName_perm _).length_eq.symm, fun f hf => mem_sortByName.mp hf⟩
  cases h with
  | fileOption hn ho ht => exact .fileOption hn ho ht
  | transient hm hf ho ht => obtain ⟨m', h1, -, -, h2⟩ := key _ hm; exact .transient h1 (h2 _ hf) ho ht
  | name hm hf hp ho ht => obtain ⟨m', h1, -, -, h2⟩ := key _ hm; exact .name h1 (h2 _ hf) hp ho ht
  | quotes hm hf hp hq => obtain ⟨m', h1, -, -, h2⟩ := key _ hm; exact .quotes h1 (h2 _ hf) hp hq
  | circular hm hc =>
    obtain ⟨m', h1, -, h2, -⟩ := (sortTree_same t).symm.get hm
    rw [h2]
    exact .circular h1 ((sortTree_same t).symm.reaches hc)
  | tooMany hm hx =>
    obtain ⟨m', h1, h2, h3, -⟩ := key _ hm
    rw [← h2]
    exact .tooMany h1 (by rw [h3]; exact hx)

end PG.Gen
