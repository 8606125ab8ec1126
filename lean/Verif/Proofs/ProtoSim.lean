import Verif.Proofs.ProtoLex
/-
Two runs of the schema parser over sources that deliver the same tokens have the same outcome, up to positions.
-/
set_option autoImplicit false
namespace PG.Proto

/-- Equal up to the position. -/
def OptEntry.erase (e : OptEntry) : OptEntry := { e with line := 0 }
/-- Equal up to positions. -/
def OptMap.erase (m : OptMap) : OptMap := m.map fun p => (p.1, p.2.erase)
/-- Equal up to positions. -/
def Field.erase (f : Field) : Field := { f with options := OptMap.erase f.options }
/-- Equal up to positions. -/
def Message.erase (m : Message) : Message :=
  { m with fields := m.fields.map Field.erase, options := OptMap.erase m.options }
/-- The schema without the line numbers of its options. -/
def Tree.erase (t : Tree) : Tree :=
  { t with messages := t.messages.map Message.erase, options := OptMap.erase t.options }

theorem OptMap.erase_set (k : Bytes) (v : OptEntry) : ∀ m : OptMap,
    OptMap.erase (OptMap.set m k v) = OptMap.set (OptMap.erase m) k v.erase
  | [] => rfl
  | (k', v') :: rest => by
    by_cases h : k' = k
    · simp [OptMap.set, OptMap.erase, h]
    · have ih := OptMap.erase_set k v rest
      simp only [OptMap.erase] at ih
      simp [OptMap.set, OptMap.erase, h, ih]

theorem Message.erase_qualifiedName (m : Message) : m.erase.qualifiedName = m.qualifiedName := rfl

theorem findMessage_erase (q : Bytes) : ∀ msgs : List Message,
    findMessage (msgs.map Message.erase) q = findMessage msgs q
  | [] => rfl
  | m :: rest => by
    simp only [List.map_cons, findMessage, Message.erase_qualifiedName, findMessage_erase q rest]

/-- Corresponding outcomes: `small` allows the first run to have too few steps. -/
def Rel {α β : Type} (small : Prop) (Q : α → β → Prop) : Out α → Out β → Prop
  | .ok a, .ok b => Q a b
  | .exc e, .exc e' => e.kind = e'.kind
  | .fuel, .fuel => True
  | .fuel, _ => small
  | _, _ => False

theorem Rel.ranOut {α β : Type} {small : Prop} {Q : α → β → Prop} (h : small) (o : Out β) : Rel small Q .fuel o := by
  cases o <;> first | exact h | trivial

theorem Rel.bind {α β α' β' : Type} {small : Prop} {Q : α → β → Prop} {Q' : α' → β' → Prop}
    {o1 : Out α} {o2 : Out β} {f : α → Out α'} {g : β → Out β'} (h : Rel small Q o1 o2)
    (hf : ∀ a b, Q a b → Rel small Q' (f a) (g b)) : Rel small Q' (o1.bind f) (o2.bind g) := by
  cases o1 <;> cases o2 <;> first
    | exact hf _ _ h
    | exact h.elim
    | exact h
    | exact Rel.ranOut h _
    | trivial

theorem Rel.mono {α β : Type} {small : Prop} {Q Q' : α → β → Prop} {o1 : Out α} {o2 : Out β}
    (h : Rel small Q o1 o2) (hq : ∀ a b, Q a b → Q' a b) : Rel small Q' o1 o2 := by
  cases o1 <;> cases o2 <;> first
    | exact hq _ _ h
    | exact h

section
variable {σ τ : Type} {small : Prop} (R : σ → τ → Prop) {nx : σ → Out (Tok × σ)} {ny : τ → Out (Tok × τ)}

/-- Corresponding tokenizers. -/
def RTk (a : Tk σ) (b : Tk τ) : Prop :=
  a.cur.code = b.cur.code ∧ a.cur.value = b.cur.value ∧ a.ungot = b.ungot ∧ R a.src b.src

/-- The sources deliver the same tokens. -/
def SameTokens (small : Prop) (nx : σ → Out (Tok × σ)) (ny : τ → Out (Tok × τ)) : Prop :=
  ∀ s t, R s t → Rel small (fun a b => a.1.code = b.1.code ∧ a.1.value = b.1.value ∧ R a.2 b.2) (nx s) (ny t)

variable {R}

theorem rel_next (hn : SameTokens R small nx ny) {a : Tk σ} {b : Tk τ} (h : RTk R a b) :
    Rel small (RTk R) (a.next nx) (b.next ny) := by
  obtain ⟨h1, h2, h3, h4⟩ := h
  unfold Tk.next
  rw [h3]
  split
  · exact ⟨h1, h2, rfl, h4⟩
  · exact Rel.bind (hn _ _ h4) (fun x y hxy => ⟨hxy.1, hxy.2.1, rfl, hxy.2.2⟩)

theorem rel_unget {a : Tk σ} {b : Tk τ} (h : RTk R a b) : Rel small (RTk R) a.unget b.unget := by
  obtain ⟨h1, h2, h3, h4⟩ := h
  unfold Tk.unget
  rw [h3]
  split
  · exact rfl
  · exact ⟨h1, h2, rfl, h4⟩

theorem rel_fail {α β : Type} {Q : α → β → Prop} {a : Tk σ} {b : Tk τ} (k : Kind) :
    Rel small Q (a.fail k : Out α) (b.fail k : Out β) := rfl

theorem rel_parseOption (hn : SameTokens R small nx ny) {a : Tk σ} {b : Tk τ} (h : RTk R a b) :
    Rel small (fun x y => x.1.erase = y.1.erase ∧ RTk R x.2 y.2) (parseOption nx a) (parseOption ny b) := by
  unfold parseOption
  refine Rel.bind (rel_next hn h) fun a b h => ?_
  rw [h.1]
  split
  · exact rel_fail _
  refine Rel.bind (rel_next hn h) fun a' b' h' => ?_
  rw [h'.1]
  split
  · exact rel_fail _
  refine Rel.bind (rel_next hn h') fun a'' b'' h'' => ?_
  rw [h''.1]
  split
  · exact rel_fail _
  · exact ⟨by simp [OptEntry.erase, h.2.1, h''.2.1], h''⟩

theorem set_congr {m m' : OptMap} {e e' : OptEntry} (hm : OptMap.erase m = OptMap.erase m') (he : e.erase = e'.erase) :
    OptMap.erase (OptMap.set m e.name e) = OptMap.erase (OptMap.set m' e'.name e') := by
  rw [OptMap.erase_set, OptMap.erase_set, hm, he]
  have : e.name = e'.name := by
    have := by have e := congrArg OptEntry.name he; exact e
    exact this
  rw [this]

theorem rel_parseFieldOptions (hn : SameTokens R small nx ny) : ∀ (n : Nat) (m m' : OptMap) (a : Tk σ) (b : Tk τ),
    OptMap.erase m = OptMap.erase m' → RTk R a b →
    Rel small (fun x y => OptMap.erase x.1 = OptMap.erase y.1 ∧ RTk R x.2 y.2)
      (parseFieldOptions nx n m a) (parseFieldOptions ny n m' b)
  | 0, _, _, _, _, _, _ => trivial
  | n + 1, m, m', a, b, hm, h => by
    unfold parseFieldOptions
    refine Rel.bind (rel_next hn h) fun a b h => ?_
    rw [h.1]
    split
    · exact Rel.bind (rel_unget h) fun a b h => ⟨hm, h⟩
    refine Rel.bind (rel_unget h) fun a b h => ?_
    refine Rel.bind (rel_parseOption hn h) fun x y hxy => ?_
    refine Rel.bind (rel_next hn hxy.2) fun a b h => ?_
    refine Rel.bind (Q := RTk R) ?_ fun a b h => ?_
    · rw [h.1]
      split
      · exact rel_unget h
      · exact h
    · exact rel_parseFieldOptions hn n _ _ a b (set_congr hm hxy.1) h

theorem rel_parseStandardOption (hn : SameTokens R small nx ny) {m m' : OptMap} {a : Tk σ} {b : Tk τ}
    (hm : OptMap.erase m = OptMap.erase m') (h : RTk R a b) :
    Rel small (fun x y => OptMap.erase x.1 = OptMap.erase y.1 ∧ RTk R x.2 y.2)
      (parseStandardOption nx m a) (parseStandardOption ny m' b) := by
  unfold parseStandardOption
  refine Rel.bind (rel_parseOption hn h) fun x y hxy => ?_
  refine Rel.bind (rel_next hn hxy.2) fun a b h => ?_
  rw [h.1]
  split
  · exact rel_fail _
  · exact ⟨set_congr hm hxy.1, h⟩

theorem rel_parseLabel (hn : SameTokens R small nx ny) {a : Tk σ} {b : Tk τ} (h : RTk R a b) :
    Rel small (fun x y => x.1 = y.1 ∧ RTk R x.2 y.2) (parseLabel nx a) (parseLabel ny b) := by
  unfold parseLabel
  rw [h.1]
  split
  · exact Rel.bind (rel_next hn h) fun a b h => ⟨rfl, h⟩
  split
  · exact Rel.bind (rel_next hn h) fun a b h => ⟨rfl, h⟩
  · exact ⟨rfl, h⟩

theorem rel_parseType {msgs msgs' : List Message} {p : Bytes} {r o : Bool} {a : Tk σ} {b : Tk τ}
    (hm : msgs.map Message.erase = msgs'.map Message.erase) (h : RTk R a b) :
    Rel small (fun x y => x = y) (parseType msgs p r o a) (parseType msgs' p r o b) := by
  unfold parseType
  rw [h.1]
  split
  · exact rfl
  split
  · simp only [Rel, h.2.1, TypeInfo.mk.injEq, true_and, and_true]
    rw [← findMessage_erase _ msgs, hm, findMessage_erase]
  · exact rel_fail _

theorem rel_parseBrackets (hn : SameTokens R small nx ny) (N : Nat) {a : Tk σ} {b : Tk τ} (h : RTk R a b) :
    Rel small (fun x y => OptMap.erase x.1 = OptMap.erase y.1 ∧ RTk R x.2 y.2)
      (parseBrackets nx N a) (parseBrackets ny N b) := by
  unfold parseBrackets
  rw [h.1]
  split
  · refine Rel.bind (rel_parseFieldOptions hn N [] [] a b rfl h) fun x y hxy => ?_
    refine Rel.bind (rel_next hn hxy.2) fun a b h => ?_
    rw [h.1]
    split
    · exact rel_fail _
    · exact Rel.bind (rel_next hn h) fun a b h => ⟨hxy.1, h⟩
  · exact ⟨rfl, h⟩

theorem any_erase (i : Int) : ∀ fs : List Field,
    (fs.map Field.erase).any (fun f => f.index == i) = fs.any (fun f => f.index == i)
  | [] => rfl
  | f :: fs => by
    simp only [List.map_cons, List.any_cons, any_erase i fs]
    rfl

theorem holder_cons (f : Field) (fs : List Field) (i : Int) :
    holder (f :: fs) i = if f.index == i then f.name else holder fs i := by
  unfold holder
  rw [List.find?_cons]
  cases f.index == i <;> rfl

theorem holder_erase (i : Int) : ∀ fs : List Field, holder (fs.map Field.erase) i = holder fs i
  | [] => rfl
  | f :: fs => by
    rw [List.map_cons, holder_cons, holder_cons, holder_erase i fs]
    rfl

theorem rel_parseField (hn : SameTokens R small nx ny) (N : Nat) {msgs msgs' : List Message} {m m' : Message}
    {a : Tk σ} {b : Tk τ} (hms : msgs.map Message.erase = msgs'.map Message.erase) (hm : m.erase = m'.erase)
    (h : RTk R a b) :
    Rel small (fun x y => x.1.erase = y.1.erase ∧ RTk R x.2 y.2)
      (parseField nx N msgs m a) (parseField ny N msgs' m' b) := by
  have hpk : m.package = m'.package := by have e := congrArg Message.package hm; exact e
  have hfs : m.fields.map Field.erase = m'.fields.map Field.erase := by have e := congrArg Message.fields hm; exact e
  have hos : OptMap.erase m.options = OptMap.erase m'.options := by have e := congrArg Message.options hm; exact e
  have hnm : m.name = m'.name := by have e := congrArg Message.name hm; exact e
  unfold parseField
  refine Rel.bind (rel_parseLabel hn h) fun x y hxy => ?_
  obtain ⟨⟨r, o⟩, a⟩ := x
  obtain ⟨⟨r', o'⟩, b⟩ := y
  obtain ⟨e, h⟩ := hxy
  simp only [Prod.mk.injEq] at e
  obtain ⟨rfl, rfl⟩ := e
  simp only
  rw [hpk]
  refine Rel.bind (rel_parseType hms h) fun ty ty' hty => ?_
  subst hty
  refine Rel.bind (rel_next hn h) fun a1 b1 h1 => ?_
  rw [h1.1]
  split
  · exact rel_fail _
  refine Rel.bind (rel_next hn h1) fun a2 b2 h2 => ?_
  rw [h2.1]
  split
  · exact rel_fail _
  refine Rel.bind (rel_next hn h2) fun a3 b3 h3 => ?_
  rw [h3.1]
  split
  · exact rel_fail _
  rw [h3.2.1]
  split
  · exact rel_fail _
  refine Rel.bind (rel_next hn h3) fun a4 b4 h4 => ?_
  refine Rel.bind (rel_parseBrackets hn N h4) fun x y hxy => ?_
  rw [hxy.2.1]
  split
  · exact rel_fail _
  rw [← any_erase _ m.fields, ← holder_erase _ m.fields, hfs, any_erase, holder_erase, h1.2.1]
  split
  · exact rel_fail _
  refine ⟨?_, hxy.2⟩
  simp [Message.erase, hfs, hos, hpk, hnm, Field.erase, h1.2.1, hxy.1]

theorem rel_parseBody (hn : SameTokens R small nx ny) (N : Nat) {msgs msgs' : List Message}
    (hms : msgs.map Message.erase = msgs'.map Message.erase) : ∀ (n : Nat) (m m' : Message) (a : Tk σ) (b : Tk τ),
    m.erase = m'.erase → RTk R a b →
    Rel small (fun x y => x.1.erase = y.1.erase ∧ RTk R x.2 y.2)
      (parseBody nx N msgs n m a) (parseBody ny N msgs' n m' b)
  | 0, _, _, _, _, _, _ => trivial
  | n + 1, m, m', a, b, hm, h => by
    have hos : OptMap.erase m.options = OptMap.erase m'.options := by have e := congrArg Message.options hm; exact e
    unfold parseBody
    refine Rel.bind (rel_next hn h) fun a b h => ?_
    rw [h.1]
    split
    · exact ⟨hm, h⟩
    split
    · exact ⟨hm, h⟩
    split
    · refine Rel.bind (rel_parseStandardOption hn hos h) fun x y hxy => ?_
      refine rel_parseBody hn N hms n _ _ _ _ ?_ hxy.2
      have h1 : m.package = m'.package := by have e := congrArg Message.package hm; exact e
      have h2 : m.fields.map Field.erase = m'.fields.map Field.erase := by have e := congrArg Message.fields hm; exact e
      have h3 : m.name = m'.name := by have e := congrArg Message.name hm; exact e
      simp [Message.erase, h1, h2, h3, hxy.1]
    · refine Rel.bind (rel_parseField hn N hms hm h) fun x y hxy => ?_
      exact rel_parseBody hn N hms n _ _ _ _ hxy.1 hxy.2

theorem rel_parseMessage (hn : SameTokens R small nx ny) (N : Nat) {t t' : Tree} {a : Tk σ} {b : Tk τ}
    (ht : t.erase = t'.erase) (h : RTk R a b) :
    Rel small (fun x y => x.1.erase = y.1.erase ∧ RTk R x.2 y.2)
      (parseMessage nx N t a) (parseMessage ny N t' b) := by
  have h1 : t.messages.map Message.erase = t'.messages.map Message.erase := by have e := congrArg Tree.messages ht; exact e
  have h2 : OptMap.erase t.options = OptMap.erase t'.options := by have e := congrArg Tree.options ht; exact e
  have h3 : t.package = t'.package := by have e := congrArg Tree.package ht; exact e
  unfold parseMessage
  rw [h.1]
  split
  · refine Rel.bind (rel_next hn h) fun a1 b1 k1 => ?_
    rw [k1.1]
    split
    · refine Rel.bind (rel_next hn k1) fun a2 b2 k2 => ?_
      rw [k2.1]
      split
      · exact rel_fail _
      refine Rel.bind (rel_parseBody hn N h1 N _ _ _ _ ?_ k2) fun x y hxy => ?_
      · simp [Message.erase, h3, k1.2.1]
      · exact ⟨by simp [Tree.erase, h1, h2, h3, hxy.1], hxy.2⟩
    · exact rel_fail _
  · exact rel_fail _

theorem rel_parsePackage (hn : SameTokens R small nx ny) {t t' : Tree} {a : Tk σ} {b : Tk τ}
    (ht : t.erase = t'.erase) (h : RTk R a b) :
    Rel small (fun x y => x.1.erase = y.1.erase ∧ RTk R x.2 y.2)
      (parsePackage nx t a) (parsePackage ny t' b) := by
  have h1 : t.messages.map Message.erase = t'.messages.map Message.erase := by have e := congrArg Tree.messages ht; exact e
  have h2 : OptMap.erase t.options = OptMap.erase t'.options := by have e := congrArg Tree.options ht; exact e
  unfold parsePackage
  refine Rel.bind (rel_next hn h) fun a1 b1 k1 => ?_
  rw [k1.1]
  split
  · refine Rel.bind (rel_next hn k1) fun a2 b2 k2 => ?_
    rw [k2.1]
    split
    · exact ⟨by simp [Tree.erase, h1, h2, k1.2.1], k2⟩
    · exact rel_fail _
  · exact rel_fail _

theorem rel_parseSyntax (hn : SameTokens R small nx ny) {a : Tk σ} {b : Tk τ} (h : RTk R a b) :
    Rel small (RTk R) (parseSyntax nx a) (parseSyntax ny b) := by
  unfold parseSyntax
  refine Rel.bind (rel_next hn h) fun a1 b1 k1 => ?_
  rw [k1.1]
  split
  · exact rel_fail _
  refine Rel.bind (rel_next hn k1) fun a2 b2 k2 => ?_
  rw [k2.1]
  split
  · simp only
    rw [k2.2.1]
    refine Rel.bind (rel_next hn k2) fun a3 b3 k3 => ?_
    rw [k3.1]
    split
    · split
      · exact rel_fail _
      · exact k3
    · exact rel_fail _
  · exact rel_fail _

theorem rel_parseItem (hn : SameTokens R small nx ny) (N : Nat) {t t' : Tree} {a : Tk σ} {b : Tk τ}
    (ht : t.erase = t'.erase) (h : RTk R a b) :
    Rel small (fun x y => x.1.erase = y.1.erase ∧ RTk R x.2 y.2) (parseItem nx N t a) (parseItem ny N t' b) := by
  have h1 : t.messages.map Message.erase = t'.messages.map Message.erase := by have e := congrArg Tree.messages ht; exact e
  have h2 : OptMap.erase t.options = OptMap.erase t'.options := by have e := congrArg Tree.options ht; exact e
  have h3 : t.package = t'.package := by have e := congrArg Tree.package ht; exact e
  unfold parseItem
  rw [h.1]
  split
  · exact rel_parseMessage hn N ht h
  split
  · exact rel_parsePackage hn ht h
  split
  · exact Rel.bind (rel_parseSyntax hn h) fun a b k => ⟨ht, k⟩
  split
  · exact Rel.bind (rel_parseStandardOption hn h2 h) fun x y hxy => ⟨by simp [Tree.erase, h1, h3, hxy.1], hxy.2⟩
  · exact rel_fail _

theorem rel_parseProto (hn : SameTokens R small nx ny) (N : Nat) : ∀ (n : Nat) (t t' : Tree) (a : Tk σ) (b : Tk τ),
    t.erase = t'.erase → RTk R a b →
    Rel small (fun x y => x.erase = y.erase) (parseProto nx N n t a) (parseProto ny N n t' b)
  | 0, _, _, _, _, _, _ => trivial
  | n + 1, t, t', a, b, ht, h => by
    unfold parseProto
    refine Rel.bind (rel_next hn h) fun a b h => ?_
    rw [h.1]
    split
    · exact ht
    refine Rel.bind (rel_parseItem hn N ht h) fun x y hxy => ?_
    simp only
    rw [hxy.2.1]
    split
    · exact hxy.1
    · exact rel_parseProto hn N n _ _ _ _ hxy.1 hxy.2

theorem rel_resolveFields {msgs msgs' : List Message} (hm : msgs.map Message.erase = msgs'.map Message.erase) :
    ∀ (fs fs' : List Field), fs.map Field.erase = fs'.map Field.erase →
    Rel small (fun x y => x.map Field.erase = y.map Field.erase) (resolveFields msgs fs) (resolveFields msgs' fs')
  | [], [], _ => rfl
  | [], _ :: _, h => by simp at h
  | _ :: _, [], h => by simp at h
  | f :: fs, f' :: fs', h => by
    simp only [List.map_cons, List.cons.injEq] at h
    obtain ⟨h1, h2⟩ := h
    have ht : f.type = f'.type := by have e := congrArg Field.type h1; exact e
    have hn : f.name = f'.name := by have e := congrArg Field.name h1; exact e
    have hi : f.index = f'.index := by have e := congrArg Field.index h1; exact e
    have ho : OptMap.erase f.options = OptMap.erase f'.options := by have e := congrArg Field.options h1; exact e
    unfold resolveFields
    rw [ht, ← findMessage_erase _ msgs, hm, findMessage_erase]
    split
    · exact Rel.bind (rel_resolveFields hm fs fs' h2) fun x y hxy => by
        simp only [Rel, List.map_cons, h1, hxy]
    · split
      · rfl
      · exact Rel.bind (rel_resolveFields hm fs fs' h2) fun x y hxy => by
          simp [Rel, hxy, Field.erase, hn, hi, ho]

theorem rel_resolveMessages {msgs msgs' : List Message} (hm : msgs.map Message.erase = msgs'.map Message.erase) :
    ∀ (l l' : List Message), l.map Message.erase = l'.map Message.erase →
    Rel small (fun x y => x.map Message.erase = y.map Message.erase)
      (resolveMessages msgs l) (resolveMessages msgs' l')
  | [], [], _ => rfl
  | [], _ :: _, h => by simp at h
  | _ :: _, [], h => by simp at h
  | m :: l, m' :: l', h => by
    simp only [List.map_cons, List.cons.injEq] at h
    obtain ⟨h1, h2⟩ := h
    have hp : m.package = m'.package := by have e := congrArg Message.package h1; exact e
    have hf : m.fields.map Field.erase = m'.fields.map Field.erase := by have e := congrArg Message.fields h1; exact e
    have ho : OptMap.erase m.options = OptMap.erase m'.options := by have e := congrArg Message.options h1; exact e
    have hn : m.name = m'.name := by have e := congrArg Message.name h1; exact e
    unfold resolveMessages
    refine Rel.bind (rel_resolveFields hm _ _ hf) fun x y hxy => ?_
    refine Rel.bind (rel_resolveMessages hm l l' h2) fun u v huv => ?_
    simp [Rel, huv, Message.erase, hxy, hp, ho, hn]

/-- **The parser depends on the tokens only.** -/
theorem rel_parseFrom (hn : SameTokens R small nx ny) (N : Nat) {s : σ} {t : τ} (h : R s t) :
    Rel small (fun x y => x.erase = y.erase) (parseFrom nx N s) (parseFrom ny N t) := by
  unfold parseFrom
  refine Rel.bind (rel_parseProto hn N N _ _ _ _ rfl ⟨rfl, rfl, rfl, h⟩) fun x y hxy => ?_
  have h1 : x.messages.map Message.erase = y.messages.map Message.erase := by have e := congrArg Tree.messages hxy; exact e
  have h2 : OptMap.erase x.options = OptMap.erase y.options := by have e := congrArg Tree.options hxy; exact e
  have h3 : x.package = y.package := by have e := congrArg Tree.package hxy; exact e
  refine Rel.bind (rel_resolveMessages h1 _ _ h1) fun u v huv => ?_
  simp [Rel, Tree.erase, huv, h2, h3]

end

/-- The source of tokens given by `alex`. -/
def anext (bs : Bytes) : Out (Tok × Bytes) :=
  match alex bs with
  | .tok c v r => .ok ({ code := c, value := v, line := 0, col := 0 }, r)
  | .exc k => .exc ⟨k, 0, 0⟩
  | .hang => .fuel

/-- The texts no longer than the original one. -/
def SeesUpTo (L : Nat) (s : In) (bs : Bytes) : Prop := Sees s bs ∧ bs.length ≤ L

theorem aqname_length : ∀ (n : Nat) (type : Code) (name bs : Bytes) (c : Code) (v r : Bytes),
    aqname n type name bs = some (c, v, r) → r.length ≤ bs.length
  | 0, _, _, _, _, _, _, h => by cases h
  | n + 1, type, name, [], c, v, r, h => by
    simp only [aqname, Option.some.injEq, Prod.mk.injEq] at h
    rw [← h.2.2]; exact Nat.le_refl _
  | n + 1, type, name, b :: t, c, v, r, h => by
    simp only [aqname] at h
    split at h
    · split at h
      · cases h
      · have := aqname_length n _ _ _ c v r h
        have := afterWord_length t
        simp; omega
    · simp only [Option.some.injEq, Prod.mk.injEq] at h
      rw [← h.2.2]; exact Nat.le_refl _

theorem astr_length : ∀ (v bs : Bytes) (c : Code) (w r : Bytes), astr v bs = .tok c w r → r.length < bs.length
  | _, [], _, _, _, h => by cases h
  | v, b :: t, c, w, r, h => by
    rw [astr] at h
    split at h
    · injection h with _ _ h; subst h; simp
    · split at h
      · injection h with _ _ h; subst h; simp
      · have := astr_length _ t c w r h; simp; omega

/-- A token that is not the end of the text takes at least one character. -/
theorem alex_length : ∀ (n : Nat) (bs : Bytes), bs.length ≤ n → ∀ (c : Code) (v r : Bytes), alex bs = .tok c v r →
    r.length ≤ bs.length ∧ (c ≠ .eof → r.length < bs.length)
  | n, [], _, c, v, r, h => by
    rw [alex_nil] at h
    injection h with h1 h2 h3
    subst h1 h3
    exact ⟨Nat.le_refl _, fun h => absurd rfl h⟩
  | 0, b :: t, hl, _, _, _, _ => by simp at hl
  | n + 1, b :: t, hl, c, v, r, h => by
    simp only [List.length_cons, Nat.add_le_add_iff_right] at hl
    suffices hh : r.length ≤ t.length by simp; omega
    by_cases hw : wsB b = true
    · rw [alex_ws t hw] at h
      exact (alex_length n t hl c v r h).1
    rw [Bool.not_eq_true] at hw
    by_cases hlt : letterB b = true
    · rw [alex_letter t hw hlt] at h
      split at h
      · rename_i cc vv rr heq
        injection h with _ _ h; subst h
        have h1 := aqname_length _ _ _ _ _ _ _ heq
        have h2 := afterWord_length (b :: t)
        have h3 : (word (b :: t)).length ≠ 0 := by
          simp [word, hlt, wordB]
        simp only [List.length_cons] at h2
        omega
      · cases h
    rw [Bool.not_eq_true] at hlt
    by_cases hd : digitB b = true
    · rw [alex_digit t hw hlt hd] at h
      injection h with _ _ h; subst h
      exact dropWhile_length _ _
    rw [Bool.not_eq_true] at hd
    by_cases h47 : b = 47
    · subst h47
      cases t with
      | nil =>
        rw [alex_slash_nil] at h
        injection h with _ _ h; subst h; exact Nat.le_refl _
      | cons x t =>
        simp only [List.length_cons] at hl
        by_cases hx : x = 47
        · subst hx
          rw [alex_line] at h
          split at h
          · cases h
          · rename_i q hq
            have := afterLF_length hq
            have := (alex_length n q (by omega) c v r h).1
            simp; omega
        by_cases hx2 : x = 42
        · subst hx2
          rw [alex_block] at h
          have := afterBlock_length t
          have := (alex_length n _ (by omega) c v r h).1
          simp; omega
        · rw [alex_slash x t hx hx2] at h
          have := (alex_length n t (by omega) c v r h).1
          simp; omega
    by_cases h34 : b = 34
    · subst h34
      rw [alex_quote] at h
      have := astr_length _ _ _ _ _ h
      omega
    rw [alex_symbol t hw hlt hd h47 h34] at h
    split at h
    · injection h with _ _ h; subst h; exact Nat.le_refl _
    · cases h

theorem same_lex (N L : Nat) : SameTokens (SeesUpTo L) (N ≤ L) (lex N) anext := by
  intro s bs h
  have ha := lex_spec N s bs h.1
  unfold anext
  cases hx : alex bs with
  | tok c v r =>
    rw [hx] at ha
    rcases ha with ⟨t, s', e, h1, h2, h3⟩ | ⟨e, hn⟩
    · rw [e]
      exact ⟨h1, h2, h3, Nat.le_trans (alex_length _ _ (Nat.le_refl _) c v r hx).1 h.2⟩
    · rw [e]; exact Nat.le_trans hn h.2
  | exc k =>
    rw [hx] at ha
    rcases ha with ⟨t, e, h1⟩ | ⟨e, hn⟩
    · rw [e]; exact h1
    · rw [e]; exact Nat.le_trans hn h.2
  | hang =>
    rw [hx] at ha
    have ha : lex N s = .fuel := ha
    rw [ha]; trivial

/-- **The parser on a text and on its tokens**, for any number of steps. -/
theorem parse_tokens (N : Nat) (text : Bytes) :
    Rel (N ≤ text.length) (fun x y => x.erase = y.erase) (parse N text) (parseFrom anext N text) :=
  rel_parseFrom (same_lex N text.length) N ⟨sees_open text, Nat.le_refl _⟩

end PG.Proto
