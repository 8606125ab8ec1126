import Verif.Proofs.Fault
import Verif.Proofs.Complete
/-
What was taken in before the offending token can be continued to an accepted document.
-/
set_option autoImplicit false
namespace PG

theorem scalar_null : ScalarOf .null b!"null" := rfl
theorem scalar_empty : ScalarOf (.str []) b!"\"\"" := ⟨[], rfl, .nil⟩
theorem scalar_zero : ScalarOf (.num b!"0") b!"0" := ⟨rfl, ⟨c!"0", [], rfl, .inr (by decide)⟩, by decide⟩

mutual
theorem SkipCut.viable {o : TId} : {c : ECode} → {ls : List Bytes} → SkipCut o c ls → ∃ us j, Lv false j (ls ++ us)
  | _, _, .stop _ => ⟨[b!"null"], .null, .tok scalar_null⟩
  | _, _, .head _ _ _ => ⟨[b!"null"], .null, .tok scalar_null⟩
  | _, _, .after h _ => ⟨[], _, .tok h⟩
  | _, _, .arr h => by
    obtain ⟨us, xs, h⟩ := SkipElems.viable h
    exact ⟨us ++ [b!"]"], _, by simpa using Lv.arr h⟩
  | _, _, .obj h => by
    obtain ⟨us, ms, h⟩ := SkipMembers.viable h
    exact ⟨us ++ [b!"}"], _, by simpa using Lv.obj h⟩
theorem SkipElems.viable {o : TId} : {c : ECode} → {ls : List Bytes} → SkipElems o c ls → ∃ us xs, LEl false xs (ls ++ us)
  | _, _, .elem h _ => by
    obtain ⟨us, j, h⟩ := SkipCut.viable h
    exact ⟨us, _, .one h⟩
  | _, _, .close h _ _ _ => ⟨[], _, by simpa using LEl.one h⟩
  | _, _, .next hv h => by
    obtain ⟨us, xs, h⟩ := SkipElems.viable h
    exact ⟨us, _, by simpa using LEl.cons hv h⟩
theorem SkipMembers.viable {o : TId} : {c : ECode} → {ls : List Bytes} → SkipMembers o c ls → ∃ us ms, LMe false ms (ls ++ us)
  | _, _, .name _ _ => ⟨[b!"\"\"", b!":", b!"null"], _, .one (s' := false) scalar_empty (fun h => h) (.tok scalar_null)⟩
  | _, _, .colon hk _ => ⟨[b!":", b!"null"], _, .one (s' := false) hk (fun h => h) (.tok scalar_null)⟩
  | _, _, .value hk h => by
    obtain ⟨us, j, h⟩ := SkipCut.viable h
    exact ⟨us, _, .one (s' := false) hk (fun h => h) h⟩
  | _, _, .close hk hv _ _ _ => ⟨[], _, by simpa using LMe.one (s' := false) hk (fun h => h) hv⟩
  | _, _, .next hk hv h => by
    obtain ⟨us, ms, h⟩ := SkipMembers.viable h
    exact ⟨us, _, by simpa using LMe.cons (s' := false) hk (fun h => h) hv h⟩
end

theorem ElemsCut.viable {α : Type} {P : J → List Bytes → Prop} {f : J → RC × α} {cut : TId → ECode → List Bytes → Prop}
    (hc : ∀ o c ls, cut o c ls → ∃ us j x, P j (ls ++ us) ∧ f j = (.ok, x)) (h0 : ∃ j a x, P j a ∧ f j = (.ok, x))
    {v v' : List α} {o : TId} {c : ECode} {ls : List Bytes} (h : ElemsCut P f cut v o c ls v') :
    ∃ us xs w, ElemsOf P xs (ls ++ us) ∧ absorbElems f xs v = (.ok, w) := by
  induction h with
  | elem h =>
    obtain ⟨us, j, x, h1, h2⟩ := hc _ _ _ h
    exact ⟨us, .cons j .nil, _, .one h1, by rw [absorbElems, h2]; rfl⟩
  | null =>
    obtain ⟨j, a, x, h1, h2⟩ := h0
    exact ⟨a, .cons j .nil, _, .one h1, by rw [absorbElems, h2]; rfl⟩
  | @close v o j a x h1 h2 _ _ => exact ⟨[], .cons j .nil, _, by simpa using ElemsOf.one h1, by rw [absorbElems, h2]; rfl⟩
  | @next v v' o c j a ls x h1 h2 _ ih =>
    obtain ⟨us, xs, w, h3, h4⟩ := ih
    exact ⟨us, .cons j xs, w, by simpa using ElemsOf.cons h1 h3, by rw [absorbElems, h2]; exact h4⟩

theorem MembersCut.viable {α : Type} {P : Bytes → J → List Bytes → Prop} {f : Bytes → J → α → RC × α}
    {cut : Bytes → α → TId → ECode → List Bytes → α → Prop}
    (hc : ∀ k v o c ls v', cut k v o c ls v' → ∃ us j rc w, P k j (ls ++ us) ∧ f k j v = (rc, w) ∧ (rc = .ok ∨ rc = .nil))
    (h0 : ∀ k v, ∃ w, P k .null [b!"null"] ∧ f k .null v = (.nil, w))
    {v v' : α} {o : TId} {c : ECode} {ls : List Bytes} (h : MembersCut P f cut v o c ls v') :
    ∃ us ms w, MembersOf P ms (ls ++ us) ∧ absorbMembers f ms v = (.ok, w) := by
  have one : ∀ {k : Bytes} {j : J} {v w : α} {rc : RC}, f k j v = (rc, w) → (rc = .ok ∨ rc = .nil) →
      absorbMembers f (.cons k j .nil) v = (.ok, w) := by
    intro k j v w rc h1 h2
    rcases h2 with rfl | rfl <;> rw [absorbMembers, h1] <;> rfl
  induction h with
  | @name v o _ =>
    obtain ⟨w, h1, h2⟩ := h0 [] v
    exact ⟨[b!"\"\"", b!":", b!"null"], .cons [] .null .nil, w, .one scalar_empty h1, one h2 (.inr rfl)⟩
  | @colon v o k l hk _ =>
    obtain ⟨w, h1, h2⟩ := h0 k v
    exact ⟨[b!":", b!"null"], .cons k .null .nil, w, .one hk h1, one h2 (.inr rfl)⟩
  | @value v v' o c k l ls hk h =>
    obtain ⟨us, j, rc, w, h1, h2, h3⟩ := hc _ _ _ _ _ _ h
    exact ⟨us, .cons k j .nil, w, .one hk h1, one h2 h3⟩
  | @last v v' o k l j a hk h1 h2 _ _ => exact ⟨[], .cons k j .nil, v', by simpa using MembersOf.one hk h1, one h2 (.inr rfl)⟩
  | @close v v' o rc k l j a hk h1 h2 h3 _ _ _ => exact ⟨[], .cons k j .nil, v', by simpa using MembersOf.one hk h1, one h2 h3⟩
  | @next v v1 v' o c rc k l j a ls hk h1 h2 h3 _ ih =>
    obtain ⟨us, ms, w, h4, h5⟩ := ih
    refine ⟨us, .cons k j ms, w, by simpa using MembersOf.cons hk h1 h4, ?_⟩
    rcases h3 with rfl | rfl <;> rw [absorbMembers, h2] <;> exact h5

/-- Every type reads something. -/
theorem Reads.some (t : Ty) (v : t.Den) : ∃ j a w, Reads t j a ∧ t.absorb j v = (.ok, w) := by
  have prim : ∀ (p : Prim) (u : p.Den), ∃ j a w, Single j a ∧ p.absorb j u = (.ok, w) := by
    intro p u
    cases p with
    | bool => exact ⟨.bool true, [b!"true"], _, ⟨_, rfl, rfl⟩, rfl⟩
    | int k => exact ⟨.num b!"0", [b!"0"], _, ⟨_, rfl, scalar_zero⟩, rfl⟩
    | flt k => exact ⟨.num b!"0", [b!"0"], _, ⟨_, rfl, scalar_zero⟩, rfl⟩
  cases t with
  | num p =>
    obtain ⟨j, a, w, h1, h2⟩ := prim p p.zero
    exact ⟨j, a, ⟨w, false⟩, h1, by simp only [Ty.absorb, h2]; rfl⟩
  | raw p => exact prim p v
  | str => exact ⟨.str [], [b!"\"\""], _, ⟨_, rfl, scalar_empty⟩, rfl⟩
  | bytes => exact ⟨.str [], [b!"\"\""], _, ⟨_, rfl, scalar_empty⟩, rfl⟩
  | rep t => exact ⟨.arr .nil, [b!"[", b!"]"], v, by rw [reads_rep]; rfl, rfl⟩
  | msg obf fs => exact ⟨.obj .nil, [b!"{", b!"}"], v, by rw [reads_msg]; rfl, rfl⟩

theorem ReadsAt.null : (fs : Fields) → (i : Nat) → (v : fs.Den) → ∃ w, ReadsAt fs i .null [b!"null"] ∧ fs.absorbAt i .null v = (.nil, w)
  | .nil, i, v => ⟨v, by unfold ReadsAt; exact .tok scalar_null, rfl⟩
  | .cons f t rest, i, v => by
    unfold ReadsAt Fields.absorbAt
    cases hf : f.transient with
    | true =>
      obtain ⟨w, h1, h2⟩ := ReadsAt.null rest i v.2
      exact ⟨(v.1, w), h1, by simp [h2]⟩
    | false =>
      cases i with
      | zero =>
        refine ⟨((t.absorb .null v.1).2, v.2), reads_null t _ ⟨_, rfl, scalar_null⟩, ?_⟩
        have : (t.absorb .null v.1).1 = .nil := by
          cases t with
          | num p => cases p <;> rfl
          | raw p => cases p <;> rfl
          | _ => rfl
        simp [this]
      | succ i =>
        obtain ⟨w, h1, h2⟩ := ReadsAt.null rest i v.2
        exact ⟨(v.1, w), h1, by simp [h2]⟩

mutual
/-- The lexemes before the offending token begin an accepted document. -/
theorem Cut.viable : (t : Ty) → {v v' : t.Den} → {o : TId} → {c : ECode} → {ls : List Bytes} → Cut t v o c ls v' →
    ∃ us j w, Reads t j (ls ++ us) ∧ t.absorb j v = (.ok, w)
  | .num p, v, v', o, c, ls, h => by
    obtain ⟨rfl, -⟩ : ls = [] ∧ _ := h
    obtain ⟨j, a, w, h1, h2⟩ := Reads.some (.num p) v
    exact ⟨a, j, w, h1, h2⟩
  | .raw p, v, v', o, c, ls, h => by
    obtain ⟨rfl, -⟩ : ls = [] ∧ _ := h
    obtain ⟨j, a, w, h1, h2⟩ := Reads.some (.raw p) v
    exact ⟨a, j, w, h1, h2⟩
  | .str, v, v', o, c, ls, h => by
    obtain ⟨rfl, -⟩ : ls = [] ∧ _ := h
    obtain ⟨j, a, w, h1, h2⟩ := Reads.some .str v
    exact ⟨a, j, w, h1, h2⟩
  | .bytes, v, v', o, c, ls, h => by
    obtain ⟨rfl, -⟩ : ls = [] ∧ _ := h
    obtain ⟨j, a, w, h1, h2⟩ := Reads.some .bytes v
    exact ⟨a, j, w, h1, h2⟩
  | .rep t, v, v', o, c, ls, h => by
    unfold Cut at h
    rcases h with ⟨rfl, -⟩ | ⟨inner, rfl, -, h⟩
    · obtain ⟨j, a, w, h1, h2⟩ := Reads.some (.rep t) v
      exact ⟨a, j, w, h1, h2⟩
    · obtain ⟨us, xs, w, h1, h2⟩ := h.viable (fun o c ls h => by
        obtain ⟨x, h⟩ := h
        exact Cut.viable t h) (Reads.some t t.new)
      refine ⟨us ++ [b!"]"], .arr xs, w, ?_, by rw [Ty.absorb]; exact h2⟩
      rw [reads_rep]
      simpa using h1.arr
  | .msg obf fs, v, v', o, c, ls, h => by
    unfold Cut at h
    rcases h with ⟨rfl, -⟩ | ⟨inner, rfl, -, h⟩
    · obtain ⟨j, a, w, h1, h2⟩ := Reads.some (.msg obf fs) v
      exact ⟨a, j, w, h1, h2⟩
    · obtain ⟨us, ms, w, h1, h2⟩ := h.viable (fun k v o c ls v' h => by
          cases hi : indexOf obf fs k with
          | none =>
            rw [hi] at h
            obtain ⟨us, j, hl⟩ := h.1.viable
            exact ⟨us, j, .nil, v, hl, rfl, .inr rfl⟩
          | some i =>
            rw [hi] at h
            exact CutAt.viable fs i h)
        (fun k v => by
          cases hi : indexOf obf fs k with
          | none => exact ⟨v, .tok scalar_null, rfl⟩
          | some i => exact ReadsAt.null fs i v)
      refine ⟨us ++ [b!"}"], .obj ms, w, ?_, by rw [Ty.absorb]; exact h2⟩
      rw [reads_msg]
      have := h1.obj
      simp only [List.append_assoc] at this
      exact this
theorem CutAt.viable : (fs : Fields) → (i : Nat) → {v v' : fs.Den} → {o : TId} → {c : ECode} → {ls : List Bytes} →
    CutAt fs i v o c ls v' → ∃ us j rc w, ReadsAt fs i j (ls ++ us) ∧ fs.absorbAt i j v = (rc, w) ∧ (rc = .ok ∨ rc = .nil)
  | .nil, i, v, v', o, c, ls, h => by
    unfold CutAt at h
    obtain ⟨us, j, hl⟩ := h.1.viable
    exact ⟨us, j, .nil, v, by unfold ReadsAt; exact hl, rfl, .inr rfl⟩
  | .cons f t rest, i, v, v', o, c, ls, h => by
    unfold CutAt at h
    unfold ReadsAt Fields.absorbAt
    cases hf : f.transient with
    | true =>
      rw [hf] at h
      obtain ⟨us, j, rc, w, h1, h2, h3⟩ := CutAt.viable rest i h.2
      exact ⟨us, j, rc, (v.1, w), h1, by simp [h2], h3⟩
    | false =>
      rw [hf] at h
      cases i with
      | zero =>
        obtain ⟨us, j, w, h1, h2⟩ := Cut.viable t h.2
        exact ⟨us, j, .ok, (w, v.2), h1, by simp [h2], .inl rfl⟩
      | succ i =>
        obtain ⟨us, j, rc, w, h1, h2, h3⟩ := CutAt.viable rest i h.2
        exact ⟨us, j, rc, (v.1, w), h1, by simp [h2], h3⟩
end

end PG
