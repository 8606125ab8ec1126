import Verif.Proofs.Refine
/-
Simulation: the readers look at the tokenizer only through the identifier and value of the current token, `next()` on
a proper token and `error()`.  Any relation between tokenizer states respected by these three is respected by every
reader.  Unary invariants are the special case `a = b ∧ I a`.
-/
set_option autoImplicit false
namespace PG

/-- A relation between tokenizer states that every step of a reader respects. -/
structure TzSim (S : Tz → Tz → Prop) : Prop where
  id : ∀ {a b}, S a b → a.cur.id = b.cur.id
  val : ∀ {a b}, S a b → a.cur.value = b.cur.value
  next : ∀ {a b}, S a b → a.cur.id ≠ .none → a.cur.id ≠ .eos → S a.next b.next
  error : ∀ {a b}, S a b → ∀ c, S (a.error c).2 (b.error c).2

/-- Related results. -/
def RSim (S : Tz → Tz → Prop) {α : Type} (r r' : Res α) : Prop := r.1 = r'.1 ∧ S r.2.1 r'.2.1 ∧ r.2.2 = r'.2.2

/-- Related results without an object. -/
def RSim0 (S : Tz → Tz → Prop) (r r' : RC × Tz) : Prop := r.1 = r'.1 ∧ S r.2 r'.2

section
variable {S : Tz → Tz → Prop}

theorem TzSim.err0 (hS : TzSim S) {a b : Tz} (h : S a b) (c : ECode) : RSim0 S (a.error c) (b.error c) :=
  ⟨by rw [error_fst, error_fst], hS.error h c⟩

theorem TzSim.err (hS : TzSim S) {α : Type} {a b : Tz} (h : S a b) (c : ECode) (v : α) :
    RSim S ((a.error c).1, (a.error c).2, v) ((b.error c).1, (b.error c).2, v) :=
  ⟨by rw [error_fst, error_fst], hS.error h c, rfl⟩

/-- Both sides take the same branch of `expect`. -/
theorem TzSim.expect (hS : TzSim S) {a b : Tz} (h : S a b) (t : TId) (h1 : t ≠ .none) (h2 : t ≠ .eos) :
    (∃ a' b', a.expect t = (true, a') ∧ b.expect t = (true, b') ∧ S a' b' ∧ a.cur.id = t) ∨
    (a.expect t = (false, a) ∧ b.expect t = (false, b) ∧ a.cur.id ≠ t) := by
  by_cases ht : a.cur.id = t
  · left
    refine ⟨_, _, expect_pos ht, expect_pos (by rw [← hS.id h]; exact ht), hS.next h ?_ ?_, ht⟩
    · rw [ht]; exact h1
    · rw [ht]; exact h2
  · right
    exact ⟨expect_neg ht, expect_neg (by rw [← hS.id h]; exact ht), ht⟩

theorem ignoreArrEnd_sim (hS : TzSim S) {a b : Tz} (h : S a b) : RSim0 S (ignoreArrEnd a) (ignoreArrEnd b) := by
  unfold ignoreArrEnd
  rcases hS.expect h .arre (by decide) (by decide) with ⟨a', b', ha, hb, h', _⟩ | ⟨ha, hb, _⟩
  · rw [ha, hb]; exact ⟨rfl, h'⟩
  · rw [ha, hb]; exact hS.err0 h _

theorem ignoreObjEnd_sim (hS : TzSim S) {a b : Tz} (h : S a b) : RSim0 S (ignoreObjEnd a) (ignoreObjEnd b) := by
  unfold ignoreObjEnd
  rcases hS.expect h .obje (by decide) (by decide) with ⟨a', b', ha, hb, h', _⟩ | ⟨ha, hb, _⟩
  · rw [ha, hb]; exact ⟨rfl, h'⟩
  · rw [ha, hb]; exact hS.err0 h _

/-- A step after a reader: both results have the same code. -/
theorem RSim0.cases {r r' : RC × Tz} (h : RSim0 S r r') : ∃ c x y, r = (c, x) ∧ r' = (c, y) ∧ S x y :=
  ⟨r.1, r.2, r'.2, rfl, Prod.ext h.1.symm rfl, h.2⟩

theorem RSim.cases {α : Type} {r r' : Res α} (h : RSim S r r') : ∃ c x y v, r = (c, x, v) ∧ r' = (c, y, v) ∧ S x y :=
  ⟨r.1, r.2.1, r'.2.1, r.2.2, rfl, Prod.ext h.1.symm (Prod.ext rfl h.2.2.symm), h.2.1⟩

mutual
theorem ignoreValue_sim (hS : TzSim S) : (n : Nat) → {a b : Tz} → S a b → RSim0 S (ignoreValue n a) (ignoreValue n b)
  | 0, _, _, h => ⟨rfl, h⟩
  | n + 1, a, b, h => by
    unfold ignoreValue
    rw [← hS.id h]
    have scalar : a.cur.id ≠ .none → a.cur.id ≠ .eos →
        RSim0 S (if (decide (a.next.cur.id = .none) || decide (a.next.cur.id = .eos)) = true then a.next.error .ignoreEnd else (.ok, a.next))
          (if (decide (b.next.cur.id = .none) || decide (b.next.cur.id = .eos)) = true then b.next.error .ignoreEnd else (.ok, b.next)) := by
      intro h1 h2
      have hn := hS.next h h1 h2
      rw [← hS.id hn]
      split
      · exact hS.err0 hn _
      · exact ⟨rfl, hn⟩
    cases hid : a.cur.id with
    | none => exact hS.err0 h _
    | eos => exact hS.err0 h _
    | objs => exact ignoreObjLoop_sim hS n (hS.next h (by simp [hid]) (by simp [hid]))
    | arrs => exact ignoreArrLoop_sim hS n (hS.next h (by simp [hid]) (by simp [hid]))
    | string => exact scalar (by simp [hid]) (by simp [hid])
    | number => exact scalar (by simp [hid]) (by simp [hid])
    | nil => exact scalar (by simp [hid]) (by simp [hid])
    | btrue => exact scalar (by simp [hid]) (by simp [hid])
    | bfalse => exact scalar (by simp [hid]) (by simp [hid])
    | obje => exact hS.err0 h _
    | colon => exact hS.err0 h _
    | comma => exact hS.err0 h _
    | arre => exact hS.err0 h _
theorem ignoreArrLoop_sim (hS : TzSim S) : (n : Nat) → {a b : Tz} → S a b → RSim0 S (ignoreArrLoop n a) (ignoreArrLoop n b)
  | 0, _, _, h => ⟨rfl, h⟩
  | n + 1, a, b, h => by
    unfold ignoreArrLoop
    rw [← hS.id h]
    split
    · exact ignoreArrEnd_sim hS h
    · obtain ⟨c, x, y, hx, hy, hxy⟩ := (ignoreValue_sim hS n h).cases
      rw [hx, hy]
      cases c with
      | ok =>
        simp only
        rcases hS.expect hxy .comma (by decide) (by decide) with ⟨a', b', ha, hb, h', _⟩ | ⟨ha, hb, _⟩
        · rw [ha, hb]; exact ignoreArrLoop_sim hS n h'
        · rw [ha, hb]; exact ignoreArrEnd_sim hS hxy
      | error => exact ⟨rfl, hxy⟩
      | nil => exact ⟨rfl, hxy⟩
      | fuel => exact ⟨rfl, hxy⟩
theorem ignoreObjLoop_sim (hS : TzSim S) : (n : Nat) → {a b : Tz} → S a b → RSim0 S (ignoreObjLoop n a) (ignoreObjLoop n b)
  | 0, _, _, h => ⟨rfl, h⟩
  | n + 1, a, b, h => by
    unfold ignoreObjLoop
    rw [← hS.id h]
    split
    · exact ignoreObjEnd_sim hS h
    · rcases hS.expect h .string (by decide) (by decide) with ⟨a1, b1, ha, hb, h1, _⟩ | ⟨ha, hb, _⟩
      · rw [ha, hb]
        simp only
        rcases hS.expect h1 .colon (by decide) (by decide) with ⟨a2, b2, ha, hb, h2, _⟩ | ⟨ha, hb, _⟩
        · rw [ha, hb]
          simp only
          obtain ⟨c, x, y, hx, hy, hxy⟩ := (ignoreValue_sim hS n h2).cases
          rw [hx, hy]
          cases c with
          | ok =>
            simp only
            rcases hS.expect hxy .comma (by decide) (by decide) with ⟨a', b', ha, hb, h', _⟩ | ⟨ha, hb, _⟩
            · rw [ha, hb]; exact ignoreObjLoop_sim hS n h'
            · rw [ha, hb]; exact ignoreObjEnd_sim hS hxy
          | error => exact ⟨rfl, hxy⟩
          | nil => exact ⟨rfl, hxy⟩
          | fuel => exact ⟨rfl, hxy⟩
        · rw [ha, hb]; exact hS.err0 h1 _
      · rw [ha, hb]; exact hS.err0 h _
end

theorem Prim.read_sim (hS : TzSim S) (p : Prim) {a b : Tz} (h : S a b) (v : p.Den) : RSim S (p.read a v) (p.read b v) := by
  cases p with
  | int k =>
    unfold Prim.read
    simp only
    rw [← hS.id h, ← hS.val h]
    split
    · exact ⟨rfl, h, rfl⟩
    · split
      · exact hS.err h _ _
      · rename_i h1 h2
        have h2 : a.cur.id = .number := Decidable.of_not_not h2
        exact ⟨rfl, hS.next h (by simp [h2]) (by simp [h2]), rfl⟩
  | flt k =>
    unfold Prim.read
    simp only
    rw [← hS.id h, ← hS.val h]
    split
    · exact ⟨rfl, h, rfl⟩
    · split
      · exact hS.err h _ _
      · rename_i h1 h2
        have h2 : a.cur.id = .number := Decidable.of_not_not h2
        exact ⟨rfl, hS.next h (by simp [h2]) (by simp [h2]), rfl⟩
  | bool =>
    unfold Prim.read
    simp only
    rw [← hS.id h]
    split
    · exact ⟨rfl, h, rfl⟩
    · split
      · exact hS.err h _ _
      · rename_i h1 h2
        have h2 : a.cur.id = .btrue ∨ a.cur.id = .bfalse := by
          apply Decidable.byContradiction
          intro h3
          exact h2 (not_or.mp h3)
        refine ⟨rfl, hS.next h ?_ ?_, rfl⟩ <;> rcases h2 with h2 | h2 <;> simp [h2]

theorem NumField.read_sim (hS : TzSim S) {p : Prim} {a b : Tz} (h : S a b) (v : NumField p) :
    RSim S (NumField.read a v) (NumField.read b v) := by
  obtain ⟨h1, h2, h3⟩ := Prim.read_sim hS p h p.zero
  unfold NumField.read
  exact ⟨h1, h2, by simp only [h1, h3]⟩

theorem stringRead_sim (hS : TzSim S) {a b : Tz} (h : S a b) (v : Bytes) : RSim S (stringRead a v) (stringRead b v) := by
  unfold stringRead
  rw [← hS.id h]
  split
  · exact ⟨rfl, h, rfl⟩
  · rcases hS.expect h .string (by decide) (by decide) with ⟨a1, b1, ha, hb, h1, _⟩ | ⟨ha, hb, _⟩
    · rw [ha, hb]; exact ⟨rfl, h1, hS.val h⟩
    · rw [ha, hb]; exact hS.err h _ _

theorem StrField.read_sim (hS : TzSim S) {a b : Tz} (h : S a b) (v : StrField) : RSim S (StrField.read a v) (StrField.read b v) := by
  obtain ⟨h1, h2, h3⟩ := stringRead_sim hS h []
  unfold StrField.read
  exact ⟨h1, h2, by simp only [h1, h3]⟩

theorem bytesRead_sim (hS : TzSim S) {a b : Tz} (h : S a b) (v : List Byte) : RSim S (bytesRead a v) (bytesRead b v) := by
  unfold bytesRead
  rw [← hS.id h, ← hS.val h]
  split
  · exact ⟨rfl, h, rfl⟩
  · split
    · exact hS.err h _ _
    · rename_i h1 h2
      have h2 : a.cur.id = .string := Decidable.of_not_not h2
      have hn := hS.next h (by simp [h2]) (by simp [h2])
      refine ⟨rfl, ?_, rfl⟩
      simp only
      split
      · exact hS.error hn _
      · exact hn

theorem readArrLoop_sim (hS : TzSim S) {α : Type} {rd : Tz → Res α} (hrd : ∀ {a b}, S a b → RSim S (rd a) (rd b)) :
    (n : Nat) → {a b : Tz} → S a b → (v : List α) → RSim S (readArrLoop rd n a v) (readArrLoop rd n b v)
  | 0, _, _, h, _ => ⟨rfl, h, rfl⟩
  | n + 1, a, b, h, v => by
    unfold readArrLoop
    obtain ⟨c, x, y, w, hx, hy, hxy⟩ := (hrd h).cases
    rw [hx, hy]
    have tail : ∀ v : List α, RSim S
        (match x.expect .comma with
          | (true, tz) => readArrLoop rd n tz v
          | (false, tz) =>
            match tz.expect .arre with
            | (true, tz) => (.ok, tz, v)
            | (false, tz) => let e := tz.error .invalidArray; (e.1, e.2, v))
        (match y.expect .comma with
          | (true, tz) => readArrLoop rd n tz v
          | (false, tz) =>
            match tz.expect .arre with
            | (true, tz) => (.ok, tz, v)
            | (false, tz) => let e := tz.error .invalidArray; (e.1, e.2, v)) := by
      intro v
      rcases hS.expect hxy .comma (by decide) (by decide) with ⟨a', b', ha, hb, h', _⟩ | ⟨ha, hb, _⟩
      · rw [ha, hb]; exact readArrLoop_sim hS hrd n h' v
      · rw [ha, hb]
        simp only
        rcases hS.expect hxy .arre (by decide) (by decide) with ⟨a', b', ha, hb, h', _⟩ | ⟨ha, hb, _⟩
        · rw [ha, hb]; exact ⟨rfl, h', rfl⟩
        · rw [ha, hb]; exact hS.err hxy _ _
    cases c with
    | ok => exact tail _
    | nil => exact tail _
    | error => exact ⟨rfl, hxy, rfl⟩
    | fuel => exact ⟨rfl, hxy, rfl⟩

theorem readArr_sim (hS : TzSim S) {α : Type} {rd : Tz → Res α} (hrd : ∀ {a b}, S a b → RSim S (rd a) (rd b)) (n : Nat)
    {a b : Tz} (h : S a b) (v : List α) : RSim S (readArr rd n a v) (readArr rd n b v) := by
  unfold readArr
  rw [← hS.id h]
  split
  · exact ⟨rfl, h, rfl⟩
  · rcases hS.expect h .arrs (by decide) (by decide) with ⟨a1, b1, ha, hb, h1, _⟩ | ⟨ha, hb, _⟩
    · rw [ha, hb]
      simp only
      rcases hS.expect h1 .arre (by decide) (by decide) with ⟨a', b', ha, hb, h', _⟩ | ⟨ha, hb, _⟩
      · rw [ha, hb]; exact ⟨rfl, h', rfl⟩
      · rw [ha, hb]; exact readArrLoop_sim hS hrd n h1 v
    · rw [ha, hb]; exact hS.err h _ _

theorem objStep_sim (hS : TzSim S) {a b : Tz} (h : S a b) :
    (objStep a).1 = (objStep b).1 ∧ S (objStep a).2 (objStep b).2 := by
  unfold objStep
  rcases hS.expect h .comma (by decide) (by decide) with ⟨a1, b1, ha, hb, h1, _⟩ | ⟨ha, hb, _⟩
  · rw [ha, hb]; exact ⟨rfl, h1⟩
  · rw [ha, hb]
    simp only
    rcases hS.expect h .obje (by decide) (by decide) with ⟨a', b', ha, hb, h', _⟩ | ⟨ha, hb, _⟩
    · rw [ha, hb]; exact ⟨rfl, h'⟩
    · rw [ha, hb]; exact ⟨by simp only [error_fst], hS.error h _⟩

theorem readObjLoop_sim (hS : TzSim S) {α : Type} {rf : Bytes → Tz → α → Res α}
    (hrf : ∀ {a b}, S a b → ∀ name v, RSim S (rf name a v) (rf name b v)) :
    (n : Nat) → {a b : Tz} → S a b → (v : α) → RSim S (readObjLoop rf n a v) (readObjLoop rf n b v)
  | 0, _, _, h, _ => ⟨rfl, h, rfl⟩
  | n + 1, a, b, h, v => by
    unfold readObjLoop
    rw [← hS.val h]
    simp only
    have tail : ∀ {x y : Tz}, S x y → ∀ v : α, RSim S
        (match objStep x with
          | (none, tz) => readObjLoop rf n tz v
          | (some r, tz) => (r, tz, v))
        (match objStep y with
          | (none, tz) => readObjLoop rf n tz v
          | (some r, tz) => (r, tz, v)) := by
      intro x y hxy v
      obtain ⟨h1, h2⟩ := objStep_sim hS hxy
      cases hx : objStep x with
      | mk o x' =>
        cases hy : objStep y with
        | mk o' y' =>
          rw [hx, hy] at h1 h2
          simp only at h1 h2
          subst h1
          cases o with
          | none => exact readObjLoop_sim hS hrf n h2 v
          | some r => exact ⟨rfl, h2, rfl⟩
    rcases hS.expect h .string (by decide) (by decide) with ⟨a1, b1, ha, hb, h1, _⟩ | ⟨ha, hb, _⟩
    · rw [ha, hb]
      simp only
      rcases hS.expect h1 .colon (by decide) (by decide) with ⟨a2, b2, ha, hb, h2, _⟩ | ⟨ha, hb, _⟩
      · rw [ha, hb]
        simp only
        obtain ⟨c, x, y, w, hx, hy, hxy⟩ := (hrf h2 a.cur.value v).cases
        rw [hx, hy]
        cases c with
        | ok => exact tail hxy w
        | error => exact ⟨rfl, hxy, rfl⟩
        | fuel => exact ⟨rfl, hxy, rfl⟩
        | nil =>
          simp only
          obtain ⟨c, x', y', hx, hy, hxy'⟩ := (ignoreValue_sim hS n hxy).cases
          rw [hx, hy]
          cases c with
          | ok => exact tail hxy' w
          | nil => exact tail hxy' w
          | error => exact ⟨rfl, hxy', rfl⟩
          | fuel => exact ⟨rfl, hxy', rfl⟩
      · rw [ha, hb]; exact hS.err h1 _ _
    · rw [ha, hb]; exact hS.err h _ _

theorem readObj_sim (hS : TzSim S) {α : Type} {rf : Bytes → Tz → α → Res α}
    (hrf : ∀ {a b}, S a b → ∀ name v, RSim S (rf name a v) (rf name b v)) (n : Nat) {a b : Tz} (h : S a b) (v : α) :
    RSim S (readObj rf n a v) (readObj rf n b v) := by
  unfold readObj
  rw [← hS.id h]
  split
  · exact ⟨rfl, h, rfl⟩
  · rcases hS.expect h .objs (by decide) (by decide) with ⟨a1, b1, ha, hb, h1, _⟩ | ⟨ha, hb, _⟩
    · rw [ha, hb]
      simp only
      rcases hS.expect h1 .obje (by decide) (by decide) with ⟨a', b', ha, hb, h', _⟩ | ⟨ha, hb, _⟩
      · rw [ha, hb]; exact ⟨rfl, h', rfl⟩
      · rw [ha, hb]; exact readObjLoop_sim hS hrf n h1 v
    · rw [ha, hb]; exact hS.err h _ _

mutual
theorem Ty.read_sim (hS : TzSim S) : (t : Ty) → (n : Nat) → {a b : Tz} → S a b → (v : t.Den) → RSim S (t.read n a v) (t.read n b v)
  | .num _, _, _, _, h, v => by simp only [Ty.read]; exact NumField.read_sim hS h v
  | .raw p, _, _, _, h, v => by simp only [Ty.read]; exact Prim.read_sim hS p h v
  | .str, _, _, _, h, v => by simp only [Ty.read]; exact StrField.read_sim hS h v
  | .bytes, _, _, _, h, v => by simp only [Ty.read]; exact bytesRead_sim hS h v
  | .rep t, n, _, _, h, v => by
    simp only [Ty.read]
    exact readArr_sim hS (fun h => Ty.read_sim hS t n h t.new) n h v
  | .msg obf fs, n, _, _, h, v => by
    simp only [Ty.read]
    refine readObj_sim hS ?_ n h v
    intro a b h name v
    cases indexOf obf fs name with
    | none => exact ⟨rfl, h, rfl⟩
    | some i => exact Fields.readAt_sim hS fs i n h v
theorem Fields.readAt_sim (hS : TzSim S) : (fs : Fields) → (i n : Nat) → {a b : Tz} → S a b → (v : fs.Den) →
    RSim S (fs.readAt i n a v) (fs.readAt i n b v)
  | .nil, _, _, _, _, h, _ => ⟨rfl, h, rfl⟩
  | .cons f t rest, i, n, a, b, h, v => by
    unfold Fields.readAt
    cases hf : f.transient with
    | true =>
      simp only [if_true]
      obtain ⟨h1, h2, h3⟩ := Fields.readAt_sim hS rest i n h v.2
      exact ⟨h1, h2, by simp only [h3]⟩
    | false =>
      simp only [Bool.false_eq_true, if_false]
      cases i with
      | zero =>
        obtain ⟨h1, h2, h3⟩ := Ty.read_sim hS t n h v.1
        exact ⟨h1, h2, by simp only [h3]⟩
      | succ i =>
        obtain ⟨h1, h2, h3⟩ := Fields.readAt_sim hS rest i n h v.2
        exact ⟨h1, h2, by simp only [h3]⟩
end
end

/-- A property of tokenizer states kept by `next()` on proper tokens and by `error()`. -/
structure TzInv (I : Tz → Prop) : Prop where
  next : ∀ {a}, I a → a.cur.id ≠ .none → a.cur.id ≠ .eos → I a.next
  error : ∀ {a}, I a → ∀ c, I (a.error c).2

theorem TzInv.sim {I : Tz → Prop} (h : TzInv I) : TzSim (fun a b => a = b ∧ I a) where
  id := fun h => by rw [h.1]
  val := fun h => by rw [h.1]
  next := by rintro a _ ⟨rfl, hi⟩ h1 h2; exact ⟨rfl, h.next hi h1 h2⟩
  error := by rintro a _ ⟨rfl, hi⟩ c; exact ⟨rfl, h.error hi c⟩

/-- Invariants are kept by every reader. -/
theorem TzInv.read {I : Tz → Prop} (h : TzInv I) (t : Ty) (n : Nat) {a : Tz} (ha : I a) (v : t.Den) : I (t.read n a v).2.1 :=
  (Ty.read_sim h.sim t n ⟨rfl, ha⟩ v).2.1.2

end PG
