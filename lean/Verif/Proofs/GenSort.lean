import Verif.Spec.Gen
/-
The order of the messages: cppgen.cc:509-535.
-/
set_option autoImplicit false
namespace PG.Gen
open PG.Proto

variable {msgs : List Message}

theorem Reaches.trans {i j k : Nat} (h : Reaches msgs i j) (t : Reaches msgs j k) : Reaches msgs i k := by
  induction h with
  | one h => exact .more h t
  | more h _ ih => exact .more h (ih t)

theorem fieldsAt_refers {i : Nat} {f : Field} (h : f ∈ fieldsAt msgs i) {j : Nat} (hj : f.type.ref = some j) :
    Refers msgs i j := by
  unfold fieldsAt at h
  cases hm : msgs[i]? with
  | none => rw [hm] at h; cases h
  | some m => rw [hm] at h; exact ⟨m, f, hm, h, hj⟩

theorem refers_fieldsAt {i j : Nat} (h : Refers msgs i j) : ∃ f ∈ fieldsAt msgs i, f.type.ref = some j := by
  obtain ⟨m, f, hm, hf, hj⟩ := h
  exact ⟨f, by unfold fieldsAt; rw [hm]; exact hf, hj⟩

theorem refers_lt {i j : Nat} (h : Refers msgs i j) : i < msgs.length := by
  obtain ⟨m, f, hm, _⟩ := h
  obtain ⟨h, _⟩ := List.getElem?_eq_some_iff.mp hm
  exact h

theorem ordered_append {order : List Nat} {m : Nat} (h : Ordered msgs order) (hm : ∀ j, Refers msgs m j → j ∈ order) :
    Ordered msgs (order ++ [m]) := by
  intro pre i post e j hj
  rcases List.append_eq_append_iff.mp e with ⟨a, h1, h2⟩ | ⟨a, h1, h2⟩
  · cases a with
    | nil =>
      rw [List.nil_append] at h2
      injection h2 with h2 h3
      subst h2
      rw [h1, List.append_nil]
      exact hm j hj
    | cons x a =>
      injection h2 with _ h3
      cases a <;> cases h3
  · cases a with
    | nil =>
      rw [List.nil_append] at h2
      injection h2 with h2 h3
      subst h2
      rw [List.append_nil] at h1
      rw [← h1]
      exact hm j hj
    | cons x a =>
      injection h2 with h2 h3
      subst h2
      exact h pre i a h1 j hj

theorem erase_cons (m : Nat) (l : List Nat) : (m :: l).erase m = l := by simp

/-- What a part of the sort adds. -/
def Grows (msgs : List Message) (st st' : SortSt) : Prop :=
  st'.pending = st.pending ∧
  ∃ new, st'.output = st.output ++ new ∧ new.Nodup ∧ (∀ x ∈ new, x ∉ st.output ∧ x ∉ st.pending) ∧
    (Ordered msgs st.output → Ordered msgs st'.output)

theorem Grows.refl (st : SortSt) : Grows msgs st st := ⟨rfl, [], by simp, by simp, by simp, id⟩

theorem Grows.trans {a b c : SortSt} (h : Grows msgs a b) (g : Grows msgs b c) : Grows msgs a c := by
  obtain ⟨h1, n, h2, h3, h4, h5⟩ := h
  obtain ⟨g1, k, g2, g3, g4, g5⟩ := g
  refine ⟨g1.trans h1, n ++ k, by rw [g2, h2, List.append_assoc], ?_, ?_, g5 ∘ h5⟩
  · refine List.nodup_append.mpr ⟨h3, g3, fun x hx y hy e => ?_⟩
    subst e
    exact (g4 x hy).1 (by rw [h2]; exact List.mem_append_right _ hx)
  · intro x hx
    rcases List.mem_append.mp hx with hx | hx
    · exact h4 x hx
    · have := g4 x hx
      rw [h2, h1] at this
      exact ⟨fun h => this.1 (List.mem_append_left _ h), this.2⟩

theorem Grows.mem {a b : SortSt} (h : Grows msgs a b) {x : Nat} (hx : x ∈ a.output) : x ∈ b.output := by
  obtain ⟨_, n, h2, _⟩ := h
  rw [h2]; exact List.mem_append_left _ hx

theorem sortFields_ok {go : Nat → SortSt → Res SortSt}
    (hgo : ∀ r st st', go r st = .ok st' → Grows msgs st st' ∧ r ∈ st'.output) :
    ∀ (fs : List Field) (st st' : SortSt), sortFields go fs st = .ok st' →
      Grows msgs st st' ∧ ∀ f ∈ fs, ∀ r, f.type.ref = some r → r ∈ st'.output
  | [], st, st', h => by injection h with h; subst h; exact ⟨.refl _, by simp⟩
  | f :: rest, st, st', h => by
    rw [sortFields] at h
    cases hr : f.type.ref with
    | none =>
      rw [hr] at h
      obtain ⟨h1, h2⟩ := sortFields_ok hgo rest st st' h
      refine ⟨h1, fun g hg r hgr => ?_⟩
      rcases List.mem_cons.mp hg with rfl | hg
      · rw [hr] at hgr; cases hgr
      · exact h2 g hg r hgr
    | some r0 =>
      rw [hr] at h
      dsimp only at h
      by_cases ho : r0 ∈ st.output
      · rw [if_pos ho] at h
        obtain ⟨h1, h2⟩ := sortFields_ok hgo rest st st' h
        refine ⟨h1, fun g hg r hgr => ?_⟩
        rcases List.mem_cons.mp hg with rfl | hg
        · rw [hr] at hgr; injection hgr with hgr; subst hgr; exact h1.mem ho
        · exact h2 g hg r hgr
      · rw [if_neg ho] at h
        cases hg : go r0 st with
        | exc e => rw [hg] at h; cases h
        | running => rw [hg] at h; cases h
        | ok st1 =>
          rw [hg] at h
          obtain ⟨g1, g2⟩ := hgo _ _ _ hg
          obtain ⟨h1, h2⟩ := sortFields_ok hgo rest st1 st' h
          refine ⟨g1.trans h1, fun g hg r hgr => ?_⟩
          rcases List.mem_cons.mp hg with rfl | hg
          · rw [hr] at hgr; injection hgr with hgr; subst hgr; exact h1.mem g2
          · exact h2 g hg r hgr

theorem sortMessage_ok : ∀ (n m : Nat) (st st' : SortSt), sortMessage msgs n m st = .ok st' →
    Grows msgs st st' ∧ m ∈ st'.output
  | 0, _, _, _, h => by cases h
  | n + 1, m, st, st', h => by
    rw [sortMessage] at h
    by_cases hp : m ∈ st.pending
    · rw [if_pos hp] at h; cases h
    rw [if_neg hp] at h
    by_cases ho : m ∈ st.output
    · rw [if_pos ho] at h
      injection h with h; subst h
      exact ⟨.refl _, ho⟩
    rw [if_neg ho] at h
    cases hs : sortFields (sortMessage msgs n) (fieldsAt msgs m) { st with pending := m :: st.pending } with
    | exc e => rw [hs] at h; cases h
    | running => rw [hs] at h; cases h
    | ok st1 =>
      rw [hs] at h
      injection h with h
      subst h
      obtain ⟨⟨h1, new, h2, h3, h4, h5⟩, hr⟩ := sortFields_ok (fun r a b => sortMessage_ok n r a b) _ _ _ hs
      dsimp only at h1 h2 h4
      refine ⟨⟨?_, new ++ [m], ?_, ?_, ?_, ?_⟩, by simp⟩
      · rw [h1]; exact erase_cons m _
      · simp [h2]
      · refine List.nodup_append.mpr ⟨h3, by simp, ?_⟩
        intro x hx y hy e
        simp only [List.mem_cons, List.not_mem_nil, or_false] at hy
        subst hy e
        exact (h4 x hx).2 List.mem_cons_self
      · intro x hx
        rcases List.mem_append.mp hx with hx | hx
        · exact ⟨(h4 x hx).1, fun h => (h4 x hx).2 (List.mem_cons_of_mem _ h)⟩
        · simp only [List.mem_cons, List.not_mem_nil, or_false] at hx
          subst hx
          exact ⟨ho, hp⟩
      · intro hord
        refine ordered_append (h5 hord) fun j hj => ?_
        obtain ⟨f, hf, hfj⟩ := refers_fieldsAt hj
        exact hr f hf j hfj

theorem sortLoop_ok (n : Nat) : ∀ (l : List Nat) (st st' : SortSt), sortLoop msgs n l st = .ok st' →
    Grows msgs st st' ∧ ∀ m ∈ l, m ∈ st'.output
  | [], st, st', h => by injection h with h; subst h; exact ⟨.refl _, by simp⟩
  | m :: rest, st, st', h => by
    rw [sortLoop] at h
    cases hs : sortMessage msgs n m st with
    | exc e => rw [hs] at h; cases h
    | running => rw [hs] at h; cases h
    | ok st1 =>
      rw [hs] at h
      obtain ⟨g1, g2⟩ := sortMessage_ok n m st st1 hs
      obtain ⟨h1, h2⟩ := sortLoop_ok n rest st1 st' h
      refine ⟨g1.trans h1, fun x hx => ?_⟩
      rcases List.mem_cons.mp hx with rfl | hx
      · exact h1.mem g2
      · exact h2 x hx

/-! ### Exceptions -/

/-- The messages being processed all reach this one. -/
def Above (msgs : List Message) (st : SortSt) (m : Nat) : Prop := ∀ p ∈ st.pending, Reaches msgs p m

theorem sortFields_exc {go : Nat → SortSt → Res SortSt}
    (hok : ∀ r st st', go r st = .ok st' → st'.pending = st.pending)
    (hgo : ∀ r st e, Above msgs st r → go r st = .exc e → Circular msgs) {m : Nat} :
    ∀ (fs : List Field) (st : SortSt) (e : GExc), (∀ f ∈ fs, ∀ r, f.type.ref = some r → Refers msgs m r) →
      (∀ p ∈ st.pending, p = m ∨ Reaches msgs p m) → sortFields go fs st = .exc e → Circular msgs
  | [], _, _, _, _, h => by cases h
  | f :: rest, st, e, hf, hp, h => by
    rw [sortFields] at h
    have hf' : ∀ g ∈ rest, ∀ r, g.type.ref = some r → Refers msgs m r := fun g hg => hf g (List.mem_cons_of_mem _ hg)
    cases hr : f.type.ref with
    | none => rw [hr] at h; exact sortFields_exc hok hgo rest st e hf' hp h
    | some r =>
      rw [hr] at h
      dsimp only at h
      by_cases ho : r ∈ st.output
      · rw [if_pos ho] at h; exact sortFields_exc hok hgo rest st e hf' hp h
      rw [if_neg ho] at h
      have href := hf f List.mem_cons_self r hr
      cases hg : go r st with
      | running => rw [hg] at h; cases h
      | exc e' =>
        refine hgo r st e' (fun p hpp => ?_) hg
        rcases hp p hpp with rfl | hpm
        · exact .one href
        · exact hpm.trans (.one href)
      | ok st1 =>
        rw [hg] at h
        exact sortFields_exc hok hgo rest st1 e hf' (by rw [hok _ _ _ hg]; exact hp) h

theorem sortMessage_exc : ∀ (n m : Nat) (st : SortSt) (e : GExc), Above msgs st m → sortMessage msgs n m st = .exc e →
    Circular msgs
  | 0, _, _, _, _, h => by cases h
  | n + 1, m, st, e, ha, h => by
    rw [sortMessage] at h
    by_cases hp : m ∈ st.pending
    · exact ⟨m, ha m hp⟩
    rw [if_neg hp] at h
    by_cases ho : m ∈ st.output
    · rw [if_pos ho] at h; cases h
    rw [if_neg ho] at h
    cases hs : sortFields (sortMessage msgs n) (fieldsAt msgs m) { st with pending := m :: st.pending } with
    | ok st1 => rw [hs] at h; cases h
    | running => rw [hs] at h; cases h
    | exc e' =>
      refine sortFields_exc (m := m) (fun r a b hab => (sortMessage_ok n r a b hab).1.1)
        (fun r st e => sortMessage_exc n r st e) _ _ e' (fun f hf r hr => fieldsAt_refers hf hr) ?_ hs
      intro p hpp
      rcases List.mem_cons.mp hpp with rfl | hpp
      · exact Or.inl rfl
      · exact Or.inr (ha p hpp)

/-- The exception names the message. -/
theorem sortFields_kind {go : Nat → SortSt → Res SortSt} (hgo : ∀ r st e, go r st = .exc e → e.kind = .circular) :
    ∀ (fs : List Field) (st : SortSt) (e : GExc), sortFields go fs st = .exc e → e.kind = .circular
  | [], _, _, h => by cases h
  | f :: rest, st, e, h => by
    rw [sortFields] at h
    cases hr : f.type.ref with
    | none => rw [hr] at h; exact sortFields_kind hgo rest st e h
    | some r =>
      rw [hr] at h
      dsimp only at h
      by_cases ho : r ∈ st.output
      · rw [if_pos ho] at h; exact sortFields_kind hgo rest st e h
      rw [if_neg ho] at h
      cases hg : go r st with
      | running => rw [hg] at h; cases h
      | exc e' => rw [hg] at h; injection h with h; subst h; exact hgo r st _ hg
      | ok st1 => rw [hg] at h; exact sortFields_kind hgo rest st1 e h

theorem sortMessage_kind : ∀ (n m : Nat) (st : SortSt) (e : GExc), sortMessage msgs n m st = .exc e →
    e.kind = .circular
  | 0, _, _, _, h => by cases h
  | n + 1, m, st, e, h => by
    rw [sortMessage] at h
    by_cases hp : m ∈ st.pending
    · rw [if_pos hp] at h; injection h with h; subst h; rfl
    rw [if_neg hp] at h
    by_cases ho : m ∈ st.output
    · rw [if_pos ho] at h; cases h
    rw [if_neg ho] at h
    cases hs : sortFields (sortMessage msgs n) (fieldsAt msgs m) { st with pending := m :: st.pending } with
    | ok st1 => rw [hs] at h; cases h
    | running => rw [hs] at h; cases h
    | exc e' =>
      rw [hs] at h
      injection h with h
      subst h
      exact sortFields_kind (fun r st e => sortMessage_kind n r st e) _ _ _ hs

theorem sortLoop_exc (n : Nat) : ∀ (l : List Nat) (st : SortSt) (e : GExc), st.pending = [] →
    sortLoop msgs n l st = .exc e → Circular msgs ∧ e.kind = .circular
  | [], _, _, _, h => by cases h
  | m :: rest, st, e, hp, h => by
    rw [sortLoop] at h
    cases hs : sortMessage msgs n m st with
    | running => rw [hs] at h; cases h
    | exc e' =>
      rw [hs] at h
      injection h with h
      subst h
      exact ⟨sortMessage_exc n m st _ (by intro p hpp; rw [hp] at hpp; cases hpp) hs, sortMessage_kind n m st _ hs⟩
    | ok st1 =>
      rw [hs] at h
      exact sortLoop_exc n rest st1 e ((sortMessage_ok n m st st1 hs).1.1.trans hp) h

/-! ### The recursion ends -/

theorem nodup_bound : ∀ (k : Nat) (l : List Nat), l.Nodup → (∀ x ∈ l, x < k) → l.length ≤ k
  | 0, l, _, h => by
    cases l with
    | nil => simp
    | cons x l => exact absurd (h x List.mem_cons_self) (by omega)
  | k + 1, l, hn, h => by
    have h1 := nodup_bound k (l.erase k) (hn.erase k) (fun x hx => by
      have hx' := List.mem_of_mem_erase hx
      have := h x hx'
      have : x ≠ k := fun e => by subst e; exact (hn.not_mem_erase) hx
      omega)
    have := List.length_erase (a := k) (l := l)
    split at this <;> omega

theorem sortFields_ends {go : Nat → SortSt → Res SortSt}
    (hok : ∀ r st st', go r st = .ok st' → st'.pending = st.pending) {P : List Nat} (hgo : ∀ r st, st.pending = P →
      r < msgs.length → go r st ≠ .running) :
    ∀ (fs : List Field) (st : SortSt), (∀ f ∈ fs, ∀ r, f.type.ref = some r → r < msgs.length) → st.pending = P →
      sortFields go fs st ≠ .running
  | [], _, _, _ => by intro h; cases h
  | f :: rest, st, hf, hp => by
    rw [sortFields]
    have hf' : ∀ g ∈ rest, ∀ r, g.type.ref = some r → r < msgs.length := fun g hg => hf g (List.mem_cons_of_mem _ hg)
    cases hr : f.type.ref with
    | none => exact sortFields_ends hok hgo rest st hf' hp
    | some r =>
      dsimp only
      by_cases ho : r ∈ st.output
      · rw [if_pos ho]; exact sortFields_ends hok hgo rest st hf' hp
      rw [if_neg ho]
      cases hg : go r st with
      | running => exact absurd hg (hgo r st hp (hf f List.mem_cons_self r hr))
      | exc e' => intro h; cases h
      | ok st1 => exact sortFields_ends hok hgo rest st1 hf' ((hok _ _ _ hg).trans hp)

theorem sortMessage_ends (hl : Linked msgs) : ∀ (n m : Nat) (st : SortSt), m < msgs.length → st.pending.Nodup →
    (∀ p ∈ st.pending, p < msgs.length) → msgs.length < n + st.pending.length → sortMessage msgs n m st ≠ .running
  | 0, m, st, hm, hn, hp, hlen => by
    have := nodup_bound _ _ hn hp
    omega
  | n + 1, m, st, hm, hn, hp, hlen => by
    rw [sortMessage]
    by_cases hpm : m ∈ st.pending
    · rw [if_pos hpm]; intro h; cases h
    rw [if_neg hpm]
    by_cases ho : m ∈ st.output
    · rw [if_pos ho]; intro h; cases h
    rw [if_neg ho]
    have key := sortFields_ends (msgs := msgs) (go := sortMessage msgs n) (P := m :: st.pending)
      (fun r a b hab => (sortMessage_ok n r a b hab).1.1)
      (fun r st' hst hr => sortMessage_ends hl n r st' hr (by rw [hst]; exact List.nodup_cons.mpr ⟨hpm, hn⟩)
        (by rw [hst]; intro p hpp; rcases List.mem_cons.mp hpp with rfl | hpp; exact hm; exact hp p hpp)
        (by rw [hst, List.length_cons]; omega))
      (fieldsAt msgs m) { st with pending := m :: st.pending }
      (fun f hf r hr => hl m r (fieldsAt_refers hf hr)) rfl
    cases hs : sortFields (sortMessage msgs n) (fieldsAt msgs m) { st with pending := m :: st.pending } with
    | running => exact absurd hs key
    | exc e => intro h; cases h
    | ok st1 => intro h; cases h

theorem sortLoop_ends (hl : Linked msgs) {n : Nat} (hn : msgs.length < n) : ∀ (l : List Nat) (st : SortSt),
    (∀ m ∈ l, m < msgs.length) → st.pending = [] → sortLoop msgs n l st ≠ .running
  | [], _, _, _ => by intro h; cases h
  | m :: rest, st, hm, hp => by
    rw [sortLoop]
    cases hs : sortMessage msgs n m st with
    | running =>
      exact absurd hs (sortMessage_ends hl n m st (hm m List.mem_cons_self) (by rw [hp]; simp)
        (by rw [hp]; simp) (by rw [hp]; simpa using hn))
    | exc e => intro h; cases h
    | ok st1 =>
      exact sortLoop_ends hl hn rest st1 (fun x hx => hm x (List.mem_cons_of_mem _ hx))
        ((sortMessage_ok n m st st1 hs).1.1.trans hp)

/-! ### The elements of the result -/

theorem sortFields_lt {go : Nat → SortSt → Res SortSt} {k : Nat}
    (hgo : ∀ r st st', r < k → (∀ x ∈ st.output, x < k) → go r st = .ok st' → ∀ x ∈ st'.output, x < k) :
    ∀ (fs : List Field) (st st' : SortSt), (∀ f ∈ fs, ∀ r, f.type.ref = some r → r < k) → (∀ x ∈ st.output, x < k) →
      sortFields go fs st = .ok st' → ∀ x ∈ st'.output, x < k
  | [], st, st', _, ho, h => by injection h with h; subst h; exact ho
  | f :: rest, st, st', hf, ho, h => by
    rw [sortFields] at h
    have hf' : ∀ g ∈ rest, ∀ r, g.type.ref = some r → r < k := fun g hg => hf g (List.mem_cons_of_mem _ hg)
    cases hr : f.type.ref with
    | none => rw [hr] at h; exact sortFields_lt hgo rest st st' hf' ho h
    | some r =>
      rw [hr] at h
      dsimp only at h
      by_cases hro : r ∈ st.output
      · rw [if_pos hro] at h; exact sortFields_lt hgo rest st st' hf' ho h
      rw [if_neg hro] at h
      cases hg : go r st with
      | running => rw [hg] at h; cases h
      | exc e' => rw [hg] at h; cases h
      | ok st1 =>
        rw [hg] at h
        exact sortFields_lt hgo rest st1 st' hf' (hgo r st st1 (hf f List.mem_cons_self r hr) ho hg) h

theorem sortMessage_lt (hl : Linked msgs) : ∀ (n m : Nat) (st st' : SortSt), m < msgs.length →
    (∀ x ∈ st.output, x < msgs.length) → sortMessage msgs n m st = .ok st' → ∀ x ∈ st'.output, x < msgs.length
  | 0, _, _, _, _, _, h => by cases h
  | n + 1, m, st, st', hm, hx, h => by
    rw [sortMessage] at h
    by_cases hp : m ∈ st.pending
    · rw [if_pos hp] at h; cases h
    rw [if_neg hp] at h
    by_cases ho : m ∈ st.output
    · rw [if_pos ho] at h
      injection h with h; subst h
      exact hx
    rw [if_neg ho] at h
    cases hs : sortFields (sortMessage msgs n) (fieldsAt msgs m) { st with pending := m :: st.pending } with
    | exc e => rw [hs] at h; cases h
    | running => rw [hs] at h; cases h
    | ok st1 =>
      rw [hs] at h
      injection h with h
      subst h
      have := sortFields_lt (k := msgs.length) (fun r a b hr => sortMessage_lt hl n r a b hr) _
        { st with pending := m :: st.pending } _ (fun f hf r hr => hl m r (fieldsAt_refers hf hr)) hx hs
      intro x hxx
      rcases List.mem_append.mp hxx with hxx | hxx
      · exact this x hxx
      · simp only [List.mem_cons, List.not_mem_nil, or_false] at hxx; subst hxx; exact hm

theorem sortLoop_lt (hl : Linked msgs) (n : Nat) : ∀ (l : List Nat) (st st' : SortSt), (∀ m ∈ l, m < msgs.length) →
    (∀ x ∈ st.output, x < msgs.length) → sortLoop msgs n l st = .ok st' → ∀ x ∈ st'.output, x < msgs.length
  | [], st, st', _, hx, h => by injection h with h; subst h; exact hx
  | m :: rest, st, st', hm, hx, h => by
    rw [sortLoop] at h
    cases hs : sortMessage msgs n m st with
    | exc e => rw [hs] at h; cases h
    | running => rw [hs] at h; cases h
    | ok st1 =>
      rw [hs] at h
      exact sortLoop_lt hl n rest st1 st' (fun x hx => hm x (List.mem_cons_of_mem _ hx))
        (sortMessage_lt hl n m st st1 (hm m List.mem_cons_self) hx hs) h

theorem sortAll_ok {n : Nat} {order : List Nat} (h : sortAll msgs n = .ok order) :
    Ordered msgs order ∧ order.Nodup ∧ ∀ i < msgs.length, i ∈ order := by
  unfold sortAll at h
  cases hs : sortLoop msgs n (List.range msgs.length) { output := [], pending := [] } with
  | exc e => rw [hs] at h; cases h
  | running => rw [hs] at h; cases h
  | ok st =>
    rw [hs] at h
    injection h with h
    subst h
    obtain ⟨⟨_, new, h2, h3, _, h5⟩, h6⟩ := sortLoop_ok n _ _ _ hs
    rw [List.nil_append] at h2
    refine ⟨h5 ?_, by rw [h2]; exact h3, fun i hi => h6 i (List.mem_range.mpr hi)⟩
    intro pre i post e
    cases pre <;> cases e

theorem sortAll_lt (hl : Linked msgs) {n : Nat} {order : List Nat} (h : sortAll msgs n = .ok order) :
    ∀ i ∈ order, i < msgs.length := by
  unfold sortAll at h
  cases hs : sortLoop msgs n (List.range msgs.length) { output := [], pending := [] } with
  | exc e => rw [hs] at h; cases h
  | running => rw [hs] at h; cases h
  | ok st =>
    rw [hs] at h
    injection h with h
    subst h
    exact sortLoop_lt hl n _ _ _ (fun m hm => List.mem_range.mp hm) (by simp) hs

theorem sortAll_exc {n : Nat} {e : GExc} (h : sortAll msgs n = .exc e) : Circular msgs ∧ e.kind = .circular := by
  unfold sortAll at h
  cases hs : sortLoop msgs n (List.range msgs.length) { output := [], pending := [] } with
  | ok st => rw [hs] at h; cases h
  | running => rw [hs] at h; cases h
  | exc e' =>
    rw [hs] at h
    injection h with h
    subst h
    exact sortLoop_exc n _ _ _ rfl hs

theorem sortAll_ends (hl : Linked msgs) {n : Nat} (hn : msgs.length < n) : sortAll msgs n ≠ .running := by
  unfold sortAll
  cases hs : sortLoop msgs n (List.range msgs.length) { output := [], pending := [] } with
  | running => exact absurd hs (sortLoop_ends hl hn _ _ (fun m hm => List.mem_range.mp hm) rfl)
  | ok st => intro h; cases h
  | exc e => intro h; cases h

theorem ordered_reaches {order : List Nat} (h : Ordered msgs order) {i j : Nat} (hr : Reaches msgs i j) :
    ∀ pre post, order = pre ++ i :: post → j ∈ pre := by
  induction hr with
  | one hr => intro pre post e; exact h pre _ post e _ hr
  | @more i j k hr t ih =>
    intro pre post e
    have hj := h pre i post e j hr
    obtain ⟨p, q, rfl⟩ := List.append_of_mem hj
    have := ih p (q ++ i :: post) (by rw [e]; simp)
    exact List.mem_append_left _ this

theorem ordered_acyclic {order : List Nat} (h : Ordered msgs order) (hn : order.Nodup)
    (ha : ∀ i < msgs.length, i ∈ order) : ¬ Circular msgs := by
  rintro ⟨i, hi⟩
  have hlt : i < msgs.length := by cases hi with | one h => exact refers_lt h | more h _ => exact refers_lt h
  obtain ⟨p, q, rfl⟩ := List.append_of_mem (ha i hlt)
  have := ordered_reaches h hi p q rfl
  rw [List.nodup_append] at hn
  exact hn.2.2 i this i List.mem_cons_self rfl

end PG.Gen
