import Verif.Proofs.DriverRun
import Verif.Props.Size
/-
The names that fields of an accepted schema have in JSON are no longer than the number of steps in which it is read.
-/
set_option autoImplicit false
namespace PG.Cxx.Throw
open PG.Proto PG.Gen

/-- Only the text of a qualified name may be longer. -/
def TokShort (N : Nat) (t : Tok) : Prop := t.code ≠ .qname → t.value.length ≤ N

theorem nameLoop_short {n : Nat} : ∀ {b : Bool} {temp v : Bytes} {s s' : In}, nameLoop n b temp s = .ok (v, s') →
    v.length < temp.length + n := by
  induction n with
  | zero => intro _ _ _ _ _ h; cases h
  | succ n ih =>
    intro b temp v s s' h
    rw [nameLoop] at h
    split at h
    · split at h
      · obtain ⟨_, _, h⟩ := bind_ok h
        cases h; omega
      · have := ih h
        simp at this
        omega
    · obtain ⟨_, _, h⟩ := bind_ok h
      cases h; omega

theorem qnameLoop_same {N line col n : Nat} : ∀ {ty ty' : Code} {name v : Bytes} {s s' : In},
    qnameLoop N line col n ty name s = .ok (ty', v, s') → ty' = .qname ∨ v = name := by
  induction n with
  | zero => intro _ _ _ _ _ _ h; cases h
  | succ n ih =>
    intro ty ty' name v s s' h
    rw [qnameLoop] at h
    split at h
    · obtain ⟨a, _, h⟩ := bind_ok h
      dsimp only at h
      split at h
      · cases h
      · refine .inl ?_
        clear ih
        have key : ∀ (n : Nat) (name : Bytes) (s : In), qnameLoop N line col n .qname name s = .ok (ty', v, s') → ty' = .qname := by
          intro n
          induction n with
          | zero => intro _ _ h; cases h
          | succ n ih =>
            intro name s h
            rw [qnameLoop] at h
            split at h
            · obtain ⟨a, _, h⟩ := bind_ok h
              dsimp only at h
              split at h
              · cases h
              · exact ih _ _ h
            · obtain ⟨_, _, h⟩ := bind_ok h
              cases h; rfl
        exact key _ _ _ h
    · obtain ⟨_, _, h⟩ := bind_ok h
      cases h; exact .inr rfl

theorem qname_short {N line col : Nat} {s s' : In} {t : Tok} (h : qname N line col s = .ok (t, s')) : TokShort N t := by
  unfold qname at h
  obtain ⟨a, ha, h⟩ := bind_ok h
  obtain ⟨b, hb, h⟩ := bind_ok h
  cases h
  intro hc
  rcases qnameLoop_same (ty' := b.1) (v := b.2.1) (s' := b.2.2) hb with e | e
  · exact absurd (by simp [e]) hc
  · have := nameLoop_short (v := a.1) (s' := a.2) ha
    simp only [e]
    simp at this
    omega

theorem integerLoop_short {n : Nat} : ∀ {temp v : Bytes} {s s' : In}, integerLoop n temp s = .ok (v, s') → v.length < temp.length + n := by
  induction n with
  | zero => intro _ _ _ _ h; cases h
  | succ n ih =>
    intro temp v s s' h
    rw [integerLoop] at h
    split at h
    · have := ih h
      simp at this
      omega
    · obtain ⟨_, _, h⟩ := bind_ok h
      cases h; omega

theorem integer_short {N line col : Nat} {first : Int} {s s' : In} {t : Tok} (h : integer N first line col s = .ok (t, s')) :
    TokShort N t := by
  unfold integer at h
  obtain ⟨a, ha, h⟩ := bind_ok h
  cases h
  intro _
  have := integerLoop_short (v := a.1) (s' := a.2) ha
  have h1 : (if first ≠ 0 then [chr first] else []).length ≤ 1 := by split <;> simp
  simp only
  omega

theorem default_short (N : Nat) : TokShort N Tok.default := fun _ => Nat.zero_le _

theorem stringLoop_short {N line col n : Nat} : ∀ {value : Bytes} {s s' : In} {t : Tok}, stringLoop line col n value s = .ok (t, s') →
    value.length + n ≤ N → TokShort N t := by
  induction n with
  | zero => intro _ _ _ _ h; cases h
  | succ n ih =>
    intro value s s' t h hn
    rw [stringLoop] at h
    split at h
    · cases h; exact default_short N
    split at h
    · cases h
      intro _
      simp only
      omega
    · exact ih h (by simp; omega)

theorem lexLoop_short {N n : Nat} : ∀ {s s' : In} {t : Tok}, lexLoop N n s = .ok (t, s') → TokShort N t := by
  induction n with
  | zero => intro _ _ _ h; cases h
  | succ n ih =>
    intro s s' t h
    rw [lexLoop] at h
    obtain ⟨a, _, h⟩ := bind_ok h
    dsimp only at h
    split at h
    · cases h; exact fun _ => Nat.zero_le _
    split at h
    · obtain ⟨_, _, h⟩ := bind_ok h
      exact qname_short h
    split at h
    · exact integer_short h
    split at h
    · obtain ⟨_, _, h⟩ := bind_ok h
      exact ih h
    split at h
    · exact ih h
    split at h
    · exact stringLoop_short h (by simp)
    split at h
    · cases h; exact fun _ => Nat.zero_le _
    · cases h

/-- A source of such tokens. -/
def Short {σ : Type} (N : Nat) (nx : σ → Out (Tok × σ)) : Prop := ∀ s t s', nx s = .ok (t, s') → TokShort N t

section
variable {σ : Type} {nx : σ → Out (Tok × σ)} {N : Nat} (hx : Short N nx)
include hx

theorem next_short {tk tk' : Tk σ} (h : tk.next nx = .ok tk') (hk : TokShort N tk.cur) : TokShort N tk'.cur := by
  unfold Tk.next at h
  split at h
  · cases h; exact hk
  · obtain ⟨a, ha, h⟩ := bind_ok h
    cases h
    exact hx _ a.1 a.2 ha

omit hx in
theorem unget_short {tk tk' : Tk σ} (h : tk.unget = .ok tk') (hk : TokShort N tk.cur) : TokShort N tk'.cur := by
  unfold Tk.unget at h
  split at h
  · cases h
  · cases h; exact hk

/-- The options whose values are texts. -/
def OptShort (N : Nat) (e : OptEntry) : Prop := e.type = .string → e.value.length ≤ N

/-- Those of a field. -/
def MapShort (N : Nat) (m : OptMap) : Prop := ∀ p ∈ m, OptShort N p.2

omit hx in
theorem set_short {m : OptMap} {k : Bytes} {e : OptEntry} (hm : MapShort N m) (he : OptShort N e) : MapShort N (m.set k e) := by
  induction m with
  | nil =>
    intro p hp
    rcases List.mem_cons.mp hp with rfl | hp
    · exact he
    · cases hp
  | cons x m ih =>
    obtain ⟨k', v'⟩ := x
    have hm' : MapShort N m := fun p hp => hm p (List.mem_cons_of_mem _ hp)
    rw [OptMap.set]
    intro p hp
    split at hp
    · rcases List.mem_cons.mp hp with rfl | hp
      · exact he
      · exact hm' p hp
    · rcases List.mem_cons.mp hp with rfl | hp
      · exact hm _ (List.mem_cons_self ..)
      · exact ih hm' p hp

theorem parseOption_short {tk tk' : Tk σ} {e : OptEntry} (h : parseOption nx tk = .ok (e, tk')) (hk : TokShort N tk.cur) :
    OptShort N e ∧ TokShort N tk'.cur := by
  unfold parseOption at h
  obtain ⟨a, ha, h⟩ := bind_ok h
  have ka := next_short hx ha hk
  split at h
  · exact (fail_ok h).elim
  dsimp only at h
  obtain ⟨b, hb, h⟩ := bind_ok h
  have kb := next_short hx hb ka
  split at h
  · exact (fail_ok h).elim
  obtain ⟨c, hc, h⟩ := bind_ok h
  have kc := next_short hx hc kb
  split at h
  · exact (fail_ok h).elim
  · rename_i type ht
    cases h
    refine ⟨fun e => kc fun e' => ?_, kc⟩
    simp only at e
    subst e
    rw [e'] at ht
    cases ht

theorem parseFieldOptions_short (n : Nat) {m m' : OptMap} {tk tk' : Tk σ} (h : parseFieldOptions nx n m tk = .ok (m', tk'))
    (hm : MapShort N m) (hk : TokShort N tk.cur) : MapShort N m' ∧ TokShort N tk'.cur := by
  induction n generalizing m tk with
  | zero => cases h
  | succ n ih =>
    rw [parseFieldOptions] at h
    obtain ⟨a, ha, h⟩ := bind_ok h
    have ka := next_short hx ha hk
    split at h
    · obtain ⟨b, hb, h⟩ := bind_ok h
      cases h
      exact ⟨hm, unget_short hb ka⟩
    obtain ⟨b, hb, h⟩ := bind_ok h
    have kb := unget_short hb ka
    obtain ⟨c, hc, h⟩ := bind_ok h
    obtain ⟨kc, kc'⟩ := parseOption_short hx (e := c.1) (tk' := c.2) hc kb
    dsimp only at h
    obtain ⟨d, hd, h⟩ := bind_ok h
    have kd := next_short hx hd kc'
    obtain ⟨e, he, h⟩ := bind_ok h
    have ke : TokShort N e.cur := by
      split at he
      · exact unget_short he kd
      · cases he; exact kd
    exact ih h (set_short hm kc) ke

theorem parseStandardOption_short {m m' : OptMap} {tk tk' : Tk σ} (h : parseStandardOption nx m tk = .ok (m', tk'))
    (hk : TokShort N tk.cur) : TokShort N tk'.cur := by
  unfold parseStandardOption at h
  obtain ⟨a, ha, h⟩ := bind_ok h
  obtain ⟨_, ka⟩ := parseOption_short hx (e := a.1) (tk' := a.2) ha hk
  dsimp only at h
  obtain ⟨b, hb, h⟩ := bind_ok h
  have kb := next_short hx hb ka
  split at h
  · exact (fail_ok h).elim
  · cases h; exact kb

theorem parseBrackets_short {M : Nat} {m' : OptMap} {tk tk' : Tk σ} (h : parseBrackets nx M tk = .ok (m', tk'))
    (hk : TokShort N tk.cur) : MapShort N m' ∧ TokShort N tk'.cur := by
  unfold parseBrackets at h
  split at h
  · obtain ⟨a, ha, h⟩ := bind_ok h
    obtain ⟨ka, ka'⟩ := parseFieldOptions_short hx M (m' := a.1) (tk' := a.2) ha (fun _ h => (nomatch h)) hk
    dsimp only at h
    obtain ⟨b, hb, h⟩ := bind_ok h
    have kb := next_short hx hb ka'
    split at h
    · exact (fail_ok h).elim
    obtain ⟨c, hc, h⟩ := bind_ok h
    cases h
    exact ⟨ka, next_short hx hc kb⟩
  · cases h
    exact ⟨fun _ h => (nomatch h), hk⟩

/-- What is short in a field, and the range of its number. -/
def FieldShort (N : Nat) (f : Field) : Prop := f.name.length ≤ N ∧ MapShort N f.options ∧ 0 < f.index ∧ f.index < 1000000000

theorem parseField_short {M : Nat} {msgs : List Message} {m m' : Message} {tk tk' : Tk σ} (h : parseField nx M msgs m tk = .ok (m', tk'))
    (hm : ∀ f ∈ m.fields, FieldShort N f) (hk : TokShort N tk.cur) : (∀ f ∈ m'.fields, FieldShort N f) ∧ TokShort N tk'.cur := by
  unfold parseField at h
  obtain ⟨a, ha, h⟩ := bind_ok h
  have ka : TokShort N a.2.cur := by
    unfold parseLabel at ha
    split at ha
    · obtain ⟨x, hx', ha⟩ := bind_ok ha
      cases ha; exact next_short hx hx' hk
    split at ha
    · obtain ⟨x, hx', ha⟩ := bind_ok ha
      cases ha; exact next_short hx hx' hk
    · cases ha; exact hk
  obtain ⟨_, _, h⟩ := bind_ok h
  obtain ⟨b, hb, h⟩ := bind_ok h
  have kb := next_short hx hb ka
  split at h
  · exact (fail_ok h).elim
  rename_i hname
  obtain ⟨c, hc, h⟩ := bind_ok h
  have kc := next_short hx hc kb
  split at h
  · exact (fail_ok h).elim
  obtain ⟨d, hd, h⟩ := bind_ok h
  have kd := next_short hx hd kc
  split at h
  · exact (fail_ok h).elim
  dsimp only at h
  split at h
  · exact (fail_ok h).elim
  rename_i hbad
  obtain ⟨e, he, h⟩ := bind_ok h
  have ke := next_short hx he kd
  obtain ⟨g, hg, h⟩ := bind_ok h
  obtain ⟨kg, kg'⟩ := parseBrackets_short hx (m' := g.1) (tk' := g.2) hg ke
  split at h
  · exact (fail_ok h).elim
  split at h
  · exact (fail_ok h).elim
  cases h
  refine ⟨fun f hf => ?_, kg'⟩
  simp only [List.mem_append, List.mem_singleton] at hf
  rcases hf with hf | rfl
  · exact hm f hf
  · refine ⟨kb fun e' => ?_, kg, ?_⟩
    · rw [e'] at hname
      exact hname (by decide)
    · simp only [badIndex, Bool.or_eq_true, decide_eq_true_eq, not_or] at hbad
      simp only
      omega

theorem parseBody_short {M : Nat} {msgs : List Message} (n : Nat) {m m' : Message} {tk tk' : Tk σ}
    (h : parseBody nx M msgs n m tk = .ok (m', tk')) (hm : ∀ f ∈ m.fields, FieldShort N f) (hk : TokShort N tk.cur) :
    (∀ f ∈ m'.fields, FieldShort N f) ∧ TokShort N tk'.cur := by
  induction n generalizing m tk with
  | zero => cases h
  | succ n ih =>
    rw [parseBody] at h
    obtain ⟨a, ha, h⟩ := bind_ok h
    have ka := next_short hx ha hk
    split at h
    · cases h; exact ⟨hm, ka⟩
    split at h
    · cases h; exact ⟨hm, ka⟩
    split at h
    · obtain ⟨b, hb, h⟩ := bind_ok h
      exact ih h hm (parseStandardOption_short hx (m' := b.1) (tk' := b.2) hb ka)
    · obtain ⟨b, hb, h⟩ := bind_ok h
      obtain ⟨k1, k2⟩ := parseField_short hx (m' := b.1) (tk' := b.2) hb hm ka
      exact ih h k1 k2

/-- The fields of all messages. -/
def TreeShort (N : Nat) (l : List Message) : Prop := ∀ m ∈ l, ∀ f ∈ m.fields, FieldShort N f

theorem parseItem_short {M : Nat} {t t' : Tree} {tk tk' : Tk σ} (h : parseItem nx M t tk = .ok (t', tk')) (ht : TreeShort N t.messages)
    (hk : TokShort N tk.cur) : TreeShort N t'.messages ∧ TokShort N tk'.cur := by
  unfold parseItem at h
  split at h
  · rename_i hc
    unfold parseMessage at h
    rw [if_pos hc] at h
    obtain ⟨a, ha, h⟩ := bind_ok h
    have ka := next_short hx ha hk
    split at h
    · dsimp only at h
      obtain ⟨b, hb, h⟩ := bind_ok h
      have kb := next_short hx hb ka
      split at h
      · exact (fail_ok h).elim
      obtain ⟨c, hc, h⟩ := bind_ok h
      obtain ⟨k1, k2⟩ := parseBody_short hx M (m' := c.1) (tk' := c.2) hc (fun _ h => (nomatch h)) kb
      cases h
      refine ⟨fun m hm => ?_, k2⟩
      simp only [List.mem_append, List.mem_singleton] at hm
      rcases hm with hm | rfl
      · exact ht m hm
      · exact k1
    · exact (fail_ok h).elim
  split at h
  · unfold parsePackage at h
    obtain ⟨a, ha, h⟩ := bind_ok h
    have ka := next_short hx ha hk
    split at h
    · obtain ⟨b, hb, h⟩ := bind_ok h
      split at h
      · cases h; exact ⟨ht, next_short hx hb ka⟩
      · exact (fail_ok h).elim
    · exact (fail_ok h).elim
  split at h
  · obtain ⟨z, hz, h⟩ := bind_ok h
    cases h
    refine ⟨ht, ?_⟩
    unfold parseSyntax at hz
    obtain ⟨a, ha, hz⟩ := bind_ok hz
    have ka := next_short hx ha hk
    split at hz
    · exact (fail_ok hz).elim
    obtain ⟨b, hb, hz⟩ := bind_ok hz
    have kb := next_short hx hb ka
    split at hz
    · dsimp only at hz
      obtain ⟨c, hc, hz⟩ := bind_ok hz
      have kc := next_short hx hc kb
      split at hz
      · split at hz
        · exact (fail_ok hz).elim
        · cases hz; exact kc
      · exact (fail_ok hz).elim
    · exact (fail_ok hz).elim
  split at h
  · obtain ⟨a, ha, h⟩ := bind_ok h
    cases h
    exact ⟨ht, parseStandardOption_short hx (m' := a.1) (tk' := a.2) ha hk⟩
  · exact (fail_ok h).elim

theorem parseProto_short {M : Nat} (n : Nat) {t t' : Tree} {tk : Tk σ} (h : parseProto nx M n t tk = .ok t') (ht : TreeShort N t.messages)
    (hk : TokShort N tk.cur) : TreeShort N t'.messages := by
  induction n generalizing t tk with
  | zero => cases h
  | succ n ih =>
    rw [parseProto] at h
    obtain ⟨a, ha, h⟩ := bind_ok h
    have ka := next_short hx ha hk
    split at h
    · cases h; exact ht
    obtain ⟨b, hb, h⟩ := bind_ok h
    obtain ⟨k1, k2⟩ := parseItem_short hx (t' := b.1) (tk' := b.2) hb ht ka
    dsimp only at h
    split at h
    · cases h; exact k1
    · exact ih h k1 k2
end

theorem resolveFields_short {N : Nat} {msgs : List Message} : ∀ {l r : List Field}, resolveFields msgs l = .ok r →
    (∀ f ∈ l, FieldShort N f) → ∀ f ∈ r, FieldShort N f := by
  intro l
  induction l with
  | nil => intro r h _ f hf; cases h; cases hf
  | cons x l ih =>
    intro r h hl f hf
    have hl' : ∀ f ∈ l, FieldShort N f := fun f h => hl f (List.mem_cons_of_mem _ h)
    rw [resolveFields] at h
    split at h
    · obtain ⟨a, ha, h⟩ := bind_ok h
      cases h
      rcases List.mem_cons.mp hf with rfl | hf
      · exact hl _ (List.mem_cons_self ..)
      · exact ih ha hl' f hf
    · split at h
      · cases h
      · obtain ⟨a, ha, h⟩ := bind_ok h
        cases h
        rcases List.mem_cons.mp hf with rfl | hf
        · exact hl x (List.mem_cons_self ..)
        · exact ih ha hl' f hf

theorem resolve_short {N : Nat} {msgs : List Message} : ∀ {l r : List Message}, resolveMessages msgs l = .ok r →
    TreeShort N l → TreeShort N r := by
  intro l
  induction l with
  | nil => intro r h _ m hm; cases h; cases hm
  | cons x l ih =>
    intro r h hl m hm
    rw [resolveMessages] at h
    obtain ⟨a, ha, h⟩ := bind_ok h
    obtain ⟨b, hb, h⟩ := bind_ok h
    cases h
    rcases List.mem_cons.mp hm with rfl | hm
    · exact resolveFields_short ha (hl x (List.mem_cons_self ..))
    · exact ih hb (fun m h => hl m (List.mem_cons_of_mem _ h)) m hm

theorem parse_short {N : Nat} {text : Bytes} {t : Tree} (h : Proto.parse N text = .ok t) : TreeShort N t.messages := by
  unfold Proto.parse parseFrom at h
  obtain ⟨a, ha, h⟩ := bind_ok h
  obtain ⟨b, hb, h⟩ := bind_ok h
  cases h
  exact resolve_short hb (parseProto_short (fun s t s' h => lexLoop_short h) N ha (fun _ h => (nomatch h)) (default_short N))

/-- The name in JSON. -/
theorem jsonName_short {N : Nat} {f : Field} (h : FieldShort N f) {v : Bytes} (hv : jsonName f = .ok v) : v.length ≤ N := by
  have key : ∀ x, getString f.options b!"name" f.name = .ok x → x.length ≤ N := by
    intro x hx
    unfold getString at hx
    split at hx
    · cases hx; exact h.1
    · rename_i opt ho
      split at hx
      · cases hx
      · rename_i ht
        cases hx
        have hm : ∀ (m : OptMap), m.find b!"name" = some opt → ∃ p ∈ m, p.2 = opt := by
          intro m
          induction m with
          | nil => intro h; cases h
          | cons y m ih =>
            obtain ⟨k', v'⟩ := y
            intro h
            rw [OptMap.find] at h
            split at h
            · cases h; exact ⟨_, List.mem_cons_self .., rfl⟩
            · obtain ⟨p, hp, e⟩ := ih h
              exact ⟨p, List.mem_cons_of_mem _ hp, e⟩
        obtain ⟨p, hp, rfl⟩ := hm _ ho
        exact h.2.1 p hp (by simpa using ht)
  unfold jsonName at hv
  cases hg : getString f.options b!"name" f.name with
  | ok x =>
    rw [hg] at hv
    simp only [Res.bind] at hv
    split at hv
    · cases hv
    · cases hv; exact key _ hg
  | exc e => rw [hg] at hv; cases hv
  | running => rw [hg] at hv; cases hv

/-- What stands for the name in the header, which is what `obfuscate` is given. -/
theorem label_short {N : Nat} {f : Field} (h : FieldShort N f) (ctx : Gen.Ctx) {v : Bytes} (hv : jsonName f = .ok v) :
    (labelOf ctx f v).length ≤ N + 9 ∧ (N < 18446744073709551616 → (labelOf ctx f v).length < 18446744073709551616) := by
  have h1 := jsonName_short h hv
  have h2 : (decInt f.index).length ≤ 9 := by
    have := decInt_length (i := f.index) (k := 9) (by decide) (by have := h.2.2; omega)
    have h0 : ¬ f.index < 0 := by have := h.2.2.1; omega
    rw [if_neg h0] at this
    exact this
  unfold labelOf
  split
  · exact ⟨by omega, fun _ => by omega⟩
  · exact ⟨by omega, fun _ => by omega⟩

end PG.Cxx.Throw
