import Verif.Model.Entity
/-
Readers only look at the kinds and the values of the tokens: related tokenizers give the same results.
-/
set_option autoImplicit false
namespace PG

/-- A relation between tokenizers that the readers cannot tell apart. -/
structure TzBi (R : Tz → Tz → Prop) : Prop where
  id : ∀ {a b : Tz}, R a b → a.cur.id = b.cur.id
  value : ∀ {a b : Tz}, R a b → a.cur.value = b.cur.value
  next : ∀ {a b : Tz}, R a b → R a.next b.next
  error : ∀ {a b : Tz} (c : ECode), R a b → R (a.error c).2 (b.error c).2

variable {R : Tz → Tz → Prop}

/-- Related results without an object. -/
def Rel2 (R : Tz → Tz → Prop) (r r' : RC × Tz) : Prop := r.1 = r'.1 ∧ R r.2 r'.2

/-- Related results. -/
def Rel3 {α : Type} (R : Tz → Tz → Prop) (r r' : Res α) : Prop := r.1 = r'.1 ∧ R r.2.1 r'.2.1 ∧ r.2.2 = r'.2.2

namespace TzBi

theorem error_rc (tz : Tz) (c : ECode) : (tz.error c).1 = .error := by
  unfold Tz.error; split <;> rfl

theorem err2 (h : TzBi R) {a b : Tz} (r : R a b) (c : ECode) : Rel2 R (a.error c) (b.error c) :=
  ⟨by rw [error_rc, error_rc], h.error c r⟩

theorem err3 {α : Type} (h : TzBi R) {a b : Tz} (r : R a b) (c : ECode) (v : α) :
    Rel3 R ((a.error c).1, (a.error c).2, v) ((b.error c).1, (b.error c).2, v) :=
  ⟨by simp only [error_rc], h.error c r, rfl⟩

theorem expect (h : TzBi R) {a b : Tz} (r : R a b) (t : TId) :
    (∃ a' b', a.expect t = (true, a') ∧ b.expect t = (true, b') ∧ R a' b') ∨ (a.expect t = (false, a) ∧ b.expect t = (false, b)) := by
  unfold Tz.expect
  rw [h.id r]
  split
  · exact .inl ⟨_, _, rfl, rfl, h.next r⟩
  · exact .inr ⟨rfl, rfl⟩

theorem ok2 {a b : Tz} {c : RC} (r : R a b) : Rel2 R (c, a) (c, b) := ⟨rfl, r⟩

theorem ok3 {α : Type} {a b : Tz} {c : RC} {v : α} (r : R a b) : Rel3 R (c, a, v) (c, b, v) := ⟨rfl, r, rfl⟩

theorem arrEnd (h : TzBi R) {a b : Tz} (r : R a b) : Rel2 R (ignoreArrEnd a) (ignoreArrEnd b) := by
  unfold ignoreArrEnd
  rcases h.expect r .arre with ⟨a', b', e1, e2, r'⟩ | ⟨e1, e2⟩ <;> simp only [e1, e2]
  · exact ok2 r'
  · exact h.err2 r _

theorem objEnd (h : TzBi R) {a b : Tz} (r : R a b) : Rel2 R (ignoreObjEnd a) (ignoreObjEnd b) := by
  unfold ignoreObjEnd
  rcases h.expect r .obje with ⟨a', b', e1, e2, r'⟩ | ⟨e1, e2⟩ <;> simp only [e1, e2]
  · exact ok2 r'
  · exact h.err2 r _

mutual
theorem ignoreValue (h : TzBi R) : (n : Nat) → {a b : Tz} → R a b → Rel2 R (PG.ignoreValue n a) (PG.ignoreValue n b)
  | 0, _, _, r => ok2 r
  | n + 1, a, b, r => by
    have scalar : Rel2 R (if (decide (a.next.cur.id = .none) || decide (a.next.cur.id = .eos)) = true then
          a.next.error .ignoreEnd else (.ok, a.next))
        (if (decide (b.next.cur.id = .none) || decide (b.next.cur.id = .eos)) = true then
          b.next.error .ignoreEnd else (.ok, b.next)) := by
      rw [h.id (h.next r)]
      split
      · exact h.err2 (h.next r) _
      · exact ok2 (h.next r)
    unfold PG.ignoreValue
    rw [h.id r]
    cases b.cur.id with
    | none => exact h.err2 r _
    | eos => exact h.err2 r _
    | objs => exact ignoreObjLoop h n (h.next r)
    | arrs => exact ignoreArrLoop h n (h.next r)
    | string => exact scalar
    | number => exact scalar
    | nil => exact scalar
    | btrue => exact scalar
    | bfalse => exact scalar
    | obje => exact h.err2 r _
    | arre => exact h.err2 r _
    | colon => exact h.err2 r _
    | comma => exact h.err2 r _
theorem ignoreArrLoop (h : TzBi R) : (n : Nat) → {a b : Tz} → R a b → Rel2 R (PG.ignoreArrLoop n a) (PG.ignoreArrLoop n b)
  | 0, _, _, r => ok2 r
  | n + 1, a, b, r => by
    unfold PG.ignoreArrLoop
    rw [h.id r]
    split
    · exact h.arrEnd r
    · obtain ⟨h1, h2⟩ := ignoreValue h n r
      cases hx : PG.ignoreValue n a with
      | mk c x =>
      cases hy : PG.ignoreValue n b with
      | mk d y =>
      rw [hx, hy] at h1 h2
      simp only at h1 h2
      subst h1
      cases c
      case ok =>
        simp only
        rcases h.expect h2 .comma with ⟨a', b', e1, e2, r'⟩ | ⟨e1, e2⟩ <;> simp only [e1, e2]
        · exact ignoreArrLoop h n r'
        · exact h.arrEnd h2
      all_goals exact ok2 h2
theorem ignoreObjLoop (h : TzBi R) : (n : Nat) → {a b : Tz} → R a b → Rel2 R (PG.ignoreObjLoop n a) (PG.ignoreObjLoop n b)
  | 0, _, _, r => ok2 r
  | n + 1, a, b, r => by
    unfold PG.ignoreObjLoop
    rw [h.id r]
    split
    · exact h.objEnd r
    · rcases h.expect r .string with ⟨a', b', e1, e2, r1⟩ | ⟨e1, e2⟩ <;> simp only [e1, e2]
      · rcases h.expect r1 .colon with ⟨a'', b'', e1, e2, r2⟩ | ⟨e1, e2⟩ <;> simp only [e1, e2]
        · obtain ⟨h1, h2⟩ := ignoreValue h n r2
          cases hx : PG.ignoreValue n a'' with
          | mk c x =>
          cases hy : PG.ignoreValue n b'' with
          | mk d y =>
          rw [hx, hy] at h1 h2
          simp only at h1 h2
          subst h1
          cases c
          case ok =>
            simp only
            rcases h.expect h2 .comma with ⟨a', b', e1, e2, r'⟩ | ⟨e1, e2⟩ <;> simp only [e1, e2]
            · exact ignoreObjLoop h n r'
            · exact h.objEnd h2
          all_goals exact ok2 h2
        · exact h.err2 r1 _
      · exact h.err2 r _
end

theorem prim (h : TzBi R) (p : Prim) {a b : Tz} (r : R a b) (v : p.Den) : Rel3 R (p.read a v) (p.read b v) := by
  cases p <;> simp only [Prim.read, h.id r, h.value r] <;>
    (split
     · exact ok3 r
     · split
       · exact h.err3 r _ _
       · exact ok3 (h.next r))

theorem string (h : TzBi R) {a b : Tz} (r : R a b) (v : Bytes) : Rel3 R (stringRead a v) (stringRead b v) := by
  unfold stringRead
  rw [h.id r, h.value r]
  split
  · exact ok3 r
  · rcases h.expect r .string with ⟨a', b', e1, e2, r'⟩ | ⟨e1, e2⟩ <;> simp only [e1, e2]
    · exact ok3 r'
    · exact h.err3 r _ _

theorem bytes (h : TzBi R) {a b : Tz} (r : R a b) (v : List Byte) : Rel3 R (bytesRead a v) (bytesRead b v) := by
  unfold bytesRead
  rw [h.id r, h.value r]
  split
  · exact ok3 r
  · split
    · exact h.err3 r _ _
    · refine ⟨rfl, ?_, rfl⟩
      simp only
      split
      · exact h.error _ (h.next r)
      · exact h.next r

theorem arrLoop {α : Type} (h : TzBi R) {rd : Tz → Res α} (hrd : ∀ {a b : Tz}, R a b → Rel3 R (rd a) (rd b)) :
    (n : Nat) → {a b : Tz} → R a b → (v : List α) → Rel3 R (readArrLoop rd n a v) (readArrLoop rd n b v)
  | 0, _, _, r, v => ok3 r
  | n + 1, a, b, r, v => by
    unfold readArrLoop
    obtain ⟨h1, h2, h3⟩ := hrd r
    cases hx : rd a with
    | mk c x =>
    cases hy : rd b with
    | mk d y =>
    obtain ⟨x, u⟩ := x
    obtain ⟨y, w⟩ := y
    rw [hx, hy] at h1 h2 h3
    simp only at h1 h2 h3
    subst h1 h3
    cases c
    case error => exact ok3 h2
    case fuel => exact ok3 h2
    all_goals
      simp only
      rcases h.expect h2 .comma with ⟨a', b', e1, e2, r'⟩ | ⟨e1, e2⟩ <;> simp only [e1, e2]
      · exact arrLoop h hrd n r' _
      · rcases h.expect h2 .arre with ⟨a', b', e1, e2, r'⟩ | ⟨e1, e2⟩ <;> simp only [e1, e2]
        · exact ok3 r'
        · exact h.err3 h2 _ _

theorem arr {α : Type} (h : TzBi R) {rd : Tz → Res α} (hrd : ∀ {a b : Tz}, R a b → Rel3 R (rd a) (rd b)) (n : Nat) {a b : Tz}
    (r : R a b) (v : List α) : Rel3 R (readArr rd n a v) (readArr rd n b v) := by
  unfold readArr
  rw [h.id r]
  split
  · exact ok3 r
  · rcases h.expect r .arrs with ⟨a', b', e1, e2, r1⟩ | ⟨e1, e2⟩ <;> simp only [e1, e2]
    · rcases h.expect r1 .arre with ⟨a', b', e1, e2, r2⟩ | ⟨e1, e2⟩ <;> simp only [e1, e2]
      · exact ok3 r2
      · exact h.arrLoop hrd n r1 v
    · exact h.err3 r _ _

theorem step (h : TzBi R) {a b : Tz} (r : R a b) : (objStep a).1 = (objStep b).1 ∧ R (objStep a).2 (objStep b).2 := by
  unfold objStep
  rcases h.expect r .comma with ⟨a', b', e1, e2, r1⟩ | ⟨e1, e2⟩ <;> simp only [e1, e2]
  · exact ⟨trivial, r1⟩
  · rcases h.expect r .obje with ⟨a', b', e1, e2, r1⟩ | ⟨e1, e2⟩ <;> simp only [e1, e2]
    · exact ⟨trivial, r1⟩
    · exact ⟨by simp only [error_rc], h.error _ r⟩

theorem objLoop {α : Type} (h : TzBi R) {rf : Bytes → Tz → α → Res α}
    (hrf : ∀ (k : Bytes) {a b : Tz} (v : α), R a b → Rel3 R (rf k a v) (rf k b v)) :
    (n : Nat) → {a b : Tz} → R a b → (v : α) → Rel3 R (readObjLoop rf n a v) (readObjLoop rf n b v)
  | 0, _, _, r, v => ok3 r
  | n + 1, a, b, r, v => by
    have more : ∀ {x y : Tz} (u : α), R x y → Rel3 R
        (match objStep x with
          | (none, tz) => readObjLoop rf n tz u
          | (some r, tz) => (r, tz, u))
        (match objStep y with
          | (none, tz) => readObjLoop rf n tz u
          | (some r, tz) => (r, tz, u)) := by
      intro x y u hxy
      obtain ⟨h1, h2⟩ := h.step hxy
      cases hx : objStep x with
      | mk c x' =>
      cases hy : objStep y with
      | mk d y' =>
      rw [hx, hy] at h1 h2
      simp only at h1 h2
      subst h1
      cases c with
      | none => exact objLoop h hrf n h2 u
      | some c => exact ok3 h2
    unfold readObjLoop
    simp only [h.value r]
    rcases h.expect r .string with ⟨a', b', e1, e2, r1⟩ | ⟨e1, e2⟩ <;> simp only [e1, e2]
    · rcases h.expect r1 .colon with ⟨a'', b'', e1, e2, r2⟩ | ⟨e1, e2⟩ <;> simp only [e1, e2]
      · obtain ⟨h1, h2, h3⟩ := hrf b.cur.value v r2
        cases hx : rf b.cur.value a'' v with
        | mk c x =>
        cases hy : rf b.cur.value b'' v with
        | mk d y =>
        obtain ⟨x, u⟩ := x
        obtain ⟨y, w⟩ := y
        rw [hx, hy] at h1 h2 h3
        simp only at h1 h2 h3
        subst h1 h3
        cases c with
        | error => exact ok3 h2
        | fuel => exact ok3 h2
        | ok => exact more u h2
        | nil =>
          simp only
          obtain ⟨h1, h4⟩ := h.ignoreValue n h2
          cases hp : PG.ignoreValue n x with
          | mk c p =>
          cases hq : PG.ignoreValue n y with
          | mk d q =>
          rw [hp, hq] at h1 h4
          simp only at h1 h4
          subst h1
          cases c with
          | error => exact ok3 h4
          | fuel => exact ok3 h4
          | ok => exact more u h4
          | nil => exact more u h4
      · exact h.err3 r1 _ _
    · exact h.err3 r _ _

theorem obj {α : Type} (h : TzBi R) {rf : Bytes → Tz → α → Res α}
    (hrf : ∀ (k : Bytes) {a b : Tz} (v : α), R a b → Rel3 R (rf k a v) (rf k b v)) (n : Nat) {a b : Tz}
    (r : R a b) (v : α) : Rel3 R (readObj rf n a v) (readObj rf n b v) := by
  unfold readObj
  rw [h.id r]
  split
  · exact ok3 r
  · rcases h.expect r .objs with ⟨a', b', e1, e2, r1⟩ | ⟨e1, e2⟩ <;> simp only [e1, e2]
    · rcases h.expect r1 .obje with ⟨a', b', e1, e2, r2⟩ | ⟨e1, e2⟩ <;> simp only [e1, e2]
      · exact ok3 r2
      · exact h.objLoop hrf n r1 v
    · exact h.err3 r _ _

mutual
theorem read (h : TzBi R) : (t : Ty) → (n : Nat) → {a b : Tz} → R a b → (v : t.Den) → Rel3 R (t.read n a v) (t.read n b v)
  | .num p, n, a, b, r, v => by
    obtain ⟨h1, h2, h3⟩ := h.prim p r p.zero
    exact ⟨h1, h2, by simp only [Ty.read, NumField.read, h1, h3]⟩
  | .raw p, n, a, b, r, v => h.prim p r v
  | .str, n, a, b, r, v => by
    obtain ⟨h1, h2, h3⟩ := h.string r []
    exact ⟨h1, h2, by simp only [Ty.read, StrField.read, h1, h3]⟩
  | .bytes, n, a, b, r, v => h.bytes r v
  | .rep t, n, a, b, r, v => h.arr (fun r => read h t n r t.new) n r v
  | .msg obf fs, n, a, b, r, v => h.obj (fun k {a b} v r => by
      cases indexOf obf fs k with
      | none => exact ok3 r
      | some i => exact readAt h fs i n r v) n r v
theorem readAt (h : TzBi R) : (fs : Fields) → (i n : Nat) → {a b : Tz} → R a b → (v : fs.Den) →
    Rel3 R (fs.readAt i n a v) (fs.readAt i n b v)
  | .nil, i, n, a, b, r, v => ok3 r
  | .cons f t rest, i, n, a, b, r, v => by
    unfold Fields.readAt
    split
    · obtain ⟨h1, h2, h3⟩ := readAt h rest i n r v.2
      exact ⟨h1, h2, by simp only [h3]⟩
    · cases i with
      | zero =>
        obtain ⟨h1, h2, h3⟩ := read h t n r v.1
        exact ⟨h1, h2, by simp only [h3]⟩
      | succ i =>
        obtain ⟨h1, h2, h3⟩ := readAt h rest i n r v.2
        exact ⟨h1, h2, by simp only [h3]⟩
end

end TzBi
end PG
