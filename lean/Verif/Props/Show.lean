import Verif.Proofs.Show
import Verif.Props.Transient
import Verif.Props.Objects
import Verif.Props.EndToEnd
/-
C77: which objects have the same JSON text.  With it, exact conditions for C13 (transient data and texts) and C32
(copy assignment).
-/
set_option autoImplicit false
namespace PG

/-! ### C77 -/

/-- **C77.** Two objects of a type have the same JSON text exactly if they show the same data, for all parameters; with
`ensure_ascii` their strings have to be UTF-8, and without `serialize_null` the labels of a message have to be different. -/
theorem C77_same_text_iff (t : Ty) (params : Option Params) (a b : t.Den) (hl : t.LabelsOk)
    (hd : (params.getD {}).serializeNull = true ∨ t.Distinct)
    (ha : (params.getD {}).ensureAscii = true → t.Utf8s a) (hb : (params.getD {}).ensureAscii = true → t.Utf8s b) :
    (serialize t params a).out = (serialize t params b).out ↔ t.Shows (params.getD {}).serializeNull a b := by
  have h1 : (ctxParams params).serializeNull = (params.getD {}).serializeNull := by cases params <;> rfl
  have h2 : (ctxParams params).ensureAscii = (params.getD {}).ensureAscii := by cases params <;> rfl
  rw [← h1] at hd ⊢
  rw [← h2] at ha hb
  constructor
  · intro h
    have h : (t.write (ctxParams params) a (ctxParams params).err).2.1 ++ [] =
        (t.write (ctxParams params) b (ctxParams params).err).2.1 ++ [] := by
      rw [List.append_nil, List.append_nil]; exact h
    exact (t.write_unique _ hl hd a b ha hb _ _ [] [] (.inl rfl) (.inl rfl) h).1
  · intro h
    exact t.write_same _ a b h _ _

/-- The easy direction needs no conditions. -/
theorem C77_same_text (t : Ty) (params : Option Params) (a b : t.Den) (h : t.Shows (params.getD {}).serializeNull a b) :
    (serialize t params a).out = (serialize t params b).out := by
  have h1 : (ctxParams params).serializeNull = (params.getD {}).serializeNull := by cases params <;> rfl
  rw [← h1] at h
  exact t.write_same _ a b h _ _

mutual
theorem Ty.NamesOk.distinct : (t : Ty) → t.NamesOk → t.Distinct
  | .num _, _ => trivial
  | .raw _, _ => trivial
  | .str, _ => trivial
  | .bytes, _ => trivial
  | .rep t, h => Ty.NamesOk.distinct t h
  | .msg _ fs, h => ⟨h.2.1, Fields.NamesOk.distinct fs h.2.2⟩
theorem Fields.NamesOk.distinct : (fs : Fields) → fs.NamesOk → fs.Distinct
  | .nil, _ => trivial
  | .cons _ t rest, h => ⟨Ty.NamesOk.distinct t h.1, Fields.NamesOk.distinct rest h.2⟩
end

/-- The texts of a type tell its objects apart. -/
def TellsApart (ty : Ty) : Prop :=
  ∀ (params : Option Params) (a b : ty.Den), ((params.getD {}).ensureAscii = true → ty.Utf8s a) →
    ((params.getD {}).ensureAscii = true → ty.Utf8s b) →
    ((serialize ty params a).out = (serialize ty params b).out ↔ ty.Shows (params.getD {}).serializeNull a b)

/-- **C77**, from the text of a schema: for every accepted schema that is regular this holds for all generated classes. -/
theorem C77_of_schema {N : Nat} {text : Bytes} {t : Proto.Tree} (h : Proto.parse N text = .ok t) {fileName : Bytes}
    (hok : (Gen.output fileName t).res = .ok ()) (hr : Gen.Regular t) :
    ∃ cs, Gen.classesOf (Gen.output fileName t).calls = some cs ∧
      ∀ m ∈ t.messages, ∃ ty, cs.find (Gen.className m) = some ty ∧ TellsApart ty := by
  obtain ⟨cs, h1, _, h2⟩ := Gen.C55_classes h hok hr.distinct hr.literal hr.bytes
  refine ⟨cs, h1, fun m hm => ?_⟩
  have hj : ∀ m ∈ (Gen.sortTree t).messages, Gen.JsonNames (Gen.ctxOf t.options) m := by
    intro m hm
    obtain ⟨m', hm', rfl⟩ := Gen.sorted_message hm
    obtain ⟨a, b⟩ := hr.json m' hm'
    refine ⟨?_, fun f hf => b f (Gen.mem_sortByName.mp hf)⟩
    exact ((((Gen.sortByName_perm m'.fields).filter Gen.Persistent).map (Gen.jsonNameIn (Gen.ctxOf t.options))).nodup_iff).mpr a
  have hms : { m with fields := Gen.sortByName m.fields } ∈ (Gen.sortTree t).messages := List.mem_map_of_mem hm
  obtain ⟨ty, h3, h4⟩ := h2 _ hms
  obtain ⟨h5, h6⟩ := Gen.MessageTy.ok hj hms h4
  exact ⟨ty, h3, fun params a b ua ub => C77_same_text_iff ty params a b h5 (.inr (Ty.NamesOk.distinct ty h6)) ua ub⟩

/-- The hypotheses are met: two objects with the same text, although they differ in a transient field and in a digit far
behind the point, and two with different texts. -/
example : Demo.person.LabelsOk ∧ Demo.person.Distinct ∧ Demo.person.Utf8s Demo.person.new :=
  ⟨Demo.person_labels, Ty.NamesOk.distinct _ Demo.person_names, ⟨[], by simp, rfl⟩ |> fun (u : Utf8 []) => by
    refine ⟨fun _ => ⟨fun _ => trivial, fun _ => u, trivial⟩, fun _ => trivial, fun h => by simp at h, fun _ => trivial,
      fun _ => trivial, fun _ => u, ?_, ?_, ?_, trivial⟩
    · intro _ x hx; cases hx
    · intro _ x hx; cases hx
    · intro _ x hx; cases hx⟩

/-- A message with a double. -/
def Demo.point : Ty := .msg false (.cons (Demo.fld b!"x") (.num (.flt .f64)) .nil)
/-- A point. -/
def Demo.at (s : Bytes) : Demo.point.Den := (⟨fltOfText .f64 s, false⟩, ())

/-- Objects that are not equal but have the same text, and objects that are equal but have different texts: zero and minus
zero. -/
theorem C77_equality_is_different :
    Demo.point.equal (Demo.at b!"0.33333333") (Demo.at b!"0.33333334") = false ∧
    Demo.point.Shows false (Demo.at b!"0.33333333") (Demo.at b!"0.33333334") ∧
    Demo.point.equal (Demo.at b!"0") (Demo.at b!"-0") = true ∧
    ¬ Demo.point.Shows false (Demo.at b!"0") (Demo.at b!"-0") := by
  have hl : Demo.point.LabelsOk := ⟨fun _ b hb => by
    simp only [Demo.fld, List.mem_singleton] at hb
    subst hb
    unfold rfcRaw
    decide, trivial, trivial⟩
  have hd : Demo.point.Distinct := ⟨by decide, trivial, trivial⟩
  have key := fun a b => C77_same_text_iff Demo.point none a b hl (.inr hd) (fun h => by cases h) (fun h => by cases h)
  refine ⟨by decide +kernel, (key _ _).mp (by decide +kernel), by decide +kernel, fun h => absurd ((key _ _).mpr h) (by decide +kernel)⟩

/-- A message with two fields of one name. -/
def Demo.pair : Ty := .msg false (.cons (Demo.fld b!"k") (.num .bool) (.cons ⟨b!"l", b!"k", b!"k", false⟩ (.num .bool) .nil))

/-- **C77 (negation).** The conditions are needed.  With two fields of one name a text does not say which of them is set;
and with `ensure_ascii` different strings that are not UTF-8 have the same text. -/
theorem C77_is_false :
    ((serialize Demo.pair none ((⟨true, false⟩, NumField.new, ()) : Demo.pair.Den)).out =
      (serialize Demo.pair none ((NumField.new, ⟨true, false⟩, ()) : Demo.pair.Den)).out ∧
    ¬ Demo.pair.Shows false ((⟨true, false⟩, NumField.new, ()) : Demo.pair.Den) ((NumField.new, ⟨true, false⟩, ()) : Demo.pair.Den)) ∧
    ((serialize Demo.tagged (some { ensureAscii := true }) (Demo.tags [[0xC2, 0x80]])).out =
      (serialize Demo.tagged (some { ensureAscii := true }) (Demo.tags [[0xE0, 0x82, 0x80]])).out ∧
    ¬ Demo.tagged.Shows false (Demo.tags [[0xC2, 0x80]]) (Demo.tags [[0xE0, 0x82, 0x80]])) := by
  refine ⟨⟨by decide +kernel, ?_⟩, by decide +kernel, ?_⟩
  · intro h
    rcases h.1 rfl with ⟨_, h, _⟩ | ⟨_, h, _⟩
    · exact absurd (show (false : Bool) = true from h) (by decide)
    · rcases h with h | h
      · exact absurd h (by decide)
      · exact h rfl
  · intro h
    rcases h.1 rfl with ⟨_, h, _⟩ | ⟨_, _, h⟩
    · exact absurd (show ([_] : List StrField) = [] from h) (by simp)
    · cases h with
      | cons h _ => exact absurd (show ([0xC2, 0x80] : Bytes) = [0xE0, 0x82, 0x80] from h.1) (by decide)

/-! ### C13, exactly -/

theorem listRel_of_each {α : Type} {R S T : α → α → Prop} {xs ys : List α} (h : Each R xs ys) (hs : ListRel S xs ys)
    (hk : ∀ x y, R x y → S x y → T x y) : ListRel T xs ys := by
  induction h with
  | nil => simp [ListRel]
  | cons h _ ih =>
    unfold ListRel at hs ⊢
    exact ⟨hk _ _ h hs.1, ih hs.2⟩

mutual
theorem Ty.sameP_of_shows (nulls : Bool) : (t : Ty) → (a b : t.Den) → t.SameP true a b → t.Shows nulls a b → t.SameP nulls a b
  | .num _, _, _, h, _ => h
  | .raw _, _, _, h, _ => h
  | .str, _, _, h, _ => h
  | .bytes, _, _, h, _ => h
  | .rep t, _, _, h, hs => listRel_of_each hs h (fun x y h1 h2 => Ty.sameP_of_shows nulls t x y h2 h1)
  | .msg _ fs, a, b, h, hs => Fields.sameP_of_shows nulls fs a b h hs
theorem Fields.sameP_of_shows (nulls : Bool) : (fs : Fields) → (a b : fs.Den) → fs.SameP true a b → fs.Shows nulls a b →
    fs.SameP nulls a b
  | .nil, _, _, _, _ => trivial
  | .cons f t rest, a, b, h, hs => by
    refine ⟨fun hf => ?_, Fields.sameP_of_shows nulls rest a.2 b.2 h.2 hs.2⟩
    have h1 := (h.1 hf).1
    rcases hs.1 hf with ⟨n, ha, hb⟩ | ⟨ha, hb, h2⟩
    · have ea := (t.empty_iff a.1).mpr ha
      have eb := (t.empty_iff b.1).mpr hb
      refine ⟨?_, fun _ => by rw [ea, eb]⟩
      exact Ty.sameP_blank nulls t a.1 b.1 ha hb h1
    · refine ⟨Ty.sameP_of_shows nulls t a.1 b.1 h1 h2, fun hn => ?_⟩
      have ha := ha.resolve_left (by rw [hn]; decide)
      have hb := hb.resolve_left (by rw [hn]; decide)
      rw [← t.empty_iff, Bool.not_eq_true] at ha hb
      rw [ha, hb]
theorem Ty.sameP_blank (nulls : Bool) : (t : Ty) → (a b : t.Den) → t.Blank a → t.Blank b → t.SameP true a b → t.SameP nulls a b
  | .num _, _, _, _, _, h => h
  | .raw _, _, _, _, _, h => h
  | .str, _, _, _, _, h => h
  | .bytes, _, _, _, _, h => h
  | .rep t, a, b, ha, hb, h => by
    have ha : a = [] := ha
    have hb : b = [] := hb
    subst ha hb
    show ListRel _ [] []
    simp [ListRel]
  | .msg _ fs, a, b, ha, hb, h => Fields.sameP_blank nulls fs a b ha hb h
theorem Fields.sameP_blank (nulls : Bool) : (fs : Fields) → (a b : fs.Den) → fs.Blank a → fs.Blank b → fs.SameP true a b →
    fs.SameP nulls a b
  | .nil, _, _, _, _, _ => trivial
  | .cons f t rest, a, b, ha, hb, h =>
    ⟨fun hf => ⟨Ty.sameP_blank nulls t a.1 b.1 ha.1 hb.1 (h.1 hf).1, fun _ => by
        rw [(t.empty_iff a.1).mpr ha.1, (t.empty_iff b.1).mpr hb.1]⟩,
      Fields.sameP_blank nulls rest a.2 b.2 ha.2 hb.2 h.2⟩
end

/-- **C13**, writing, exactly: for objects that differ at most in transient fields (`SameP true`), the texts are the same if
and only if the messages held in fields agree on being empty (or `serialize_null` is set). -/
theorem C13_text_iff (t : Ty) (params : Option Params) (a b : t.Den) (hl : t.LabelsOk)
    (hd : (params.getD {}).serializeNull = true ∨ t.Distinct)
    (ha : (params.getD {}).ensureAscii = true → t.Utf8s a) (hb : (params.getD {}).ensureAscii = true → t.Utf8s b)
    (h : t.SameP true a b) :
    (serialize t params a).out = (serialize t params b).out ↔ t.SameP (params.getD {}).serializeNull a b := by
  constructor
  · intro he
    exact t.sameP_of_shows _ a b h ((C77_same_text_iff t params a b hl hd ha hb).mp he)
  · intro hs
    rw [C13_text_ignores_transient_partial t params a b hs]

/-- The hypotheses are met by the objects of `C13_nested_transient_shows`, for which the condition does not hold. -/
example : Demo.holder.LabelsOk ∧ Demo.holder.Distinct ∧
    Demo.holder.SameP true (Demo.hold ⟨CInt.cast .i32 5, false⟩) (Demo.hold NumField.new) ∧
    ¬ Demo.holder.SameP false (Demo.hold ⟨CInt.cast .i32 5, false⟩) (Demo.hold NumField.new) := by
  refine ⟨⟨fun _ b hb => ?_, ⟨fun h => (by cases h), trivial, trivial⟩, trivial⟩, ⟨by decide, ⟨⟨by decide, trivial, trivial⟩, trivial⟩⟩,
    ⟨fun _ => ⟨⟨fun h => (by cases h), trivial⟩, fun h => (by cases h)⟩, trivial⟩, fun h => ?_⟩
  · have : b ∈ b!"item" := hb
    revert b
    unfold rfcRaw
    decide
  · exact absurd ((h.1 rfl).2 rfl) (by decide +kernel)

/-! ### C32, exactly -/

/-- The pairs of elements at the same positions of two lists are related; the rest of the longer list is free. -/
def Along {α : Type} (R : α → α → Prop) : List α → List α → Prop
  | a :: as, b :: bs => R a b ∧ Along R as bs
  | _, _ => True

mutual
/-- Nothing that `a` holds would be left behind by an assignment from `b`: where `b` has no value, `a` holds what `b` holds
(up to `R` for numbers).  Elements of containers matter if they are reused. -/
def Ty.Settles (R : (p : Prim) → p.Den → p.Den → Prop) (reuse : Bool) : (t : Ty) → t.Den → t.Den → Prop
  | .num p, a, b => b.empty = true → R p a.value b.value
  | .raw _, _, _ => True
  | .str, a, b => b.null = true → a.value = b.value
  | .bytes, _, _ => True
  | .rep t, a, b => reuse = true → Along (t.Settles R reuse) a b
  | .msg _ fs, a, b => fs.Settles R reuse a b
/-- Nothing would be left behind in any field. -/
def Fields.Settles (R : (p : Prim) → p.Den → p.Den → Prop) (reuse : Bool) : (fs : Fields) → fs.Den → fs.Den → Prop
  | .nil, _, _ => True
  | .cons _ t rest, a, b => t.Settles R reuse a.1 b.1 ∧ rest.Settles R reuse a.2 b.2
end

theorem listAssign_map_iff {α β : Type} {asg : α → α → α} {reuse : Bool} {u : α → β} {R : α → α → Prop}
    (h : ∀ a b, u (asg a b) = u b ↔ R a b) : (as bs : List α) →
    ((listAssign asg reuse as bs).map u = bs.map u ↔ (reuse = true → Along R as bs))
  | [], bs => by simp [listAssign, Along]
  | a :: as, [] => by simp [listAssign, Along]
  | a :: as, b :: bs => by
    simp only [listAssign, List.map_cons, List.cons.injEq, listAssign_map_iff h as bs, Along]
    cases reuse with
    | false => simp
    | true => simp only [if_true, h, forall_const]

mutual
theorem Ty.assign_unsigned0 (reuse : Bool) : (t : Ty) → (a b : t.Den) →
    (t.unsigned0 (t.assign reuse a b) = t.unsigned0 b ↔ t.Settles (fun p x y => p.unsigned0 x = p.unsigned0 y) reuse a b)
  | .num p, a, b => by
    cases hb : b.empty
    · simp only [Ty.assign, NumField.assign, hb, Ty.Settles, Ty.unsigned0]
      simp
    · simp only [Ty.assign, NumField.assign, hb, Ty.Settles, Ty.unsigned0]
      simp
  | .raw _, _, _ => ⟨fun _ => trivial, fun _ => rfl⟩
  | .str, a, b => by
    cases hb : b.null
    · simp only [Ty.assign, StrField.assign, hb, Ty.Settles, Ty.unsigned0]
      cases b
      simp_all
    · simp only [Ty.assign, StrField.assign, hb, Ty.Settles, Ty.unsigned0]
      cases b
      simp_all
  | .bytes, _, _ => ⟨fun _ => trivial, fun _ => rfl⟩
  | .rep t, a, b => listAssign_map_iff (fun x y => Ty.assign_unsigned0 reuse t x y) a b
  | .msg _ fs, a, b => Fields.assign_unsigned0 reuse fs a b
theorem Fields.assign_unsigned0 (reuse : Bool) : (fs : Fields) → (a b : fs.Den) →
    (fs.unsigned0 (fs.assign reuse a b) = fs.unsigned0 b ↔ fs.Settles (fun p x y => p.unsigned0 x = p.unsigned0 y) reuse a b)
  | .nil, _, _ => ⟨fun _ => trivial, fun _ => rfl⟩
  | .cons _ t rest, a, b => by
    simp only [Fields.assign, Fields.unsigned0, Prod.mk.injEq, Fields.Settles, Ty.assign_unsigned0 reuse t,
      Fields.assign_unsigned0 reuse rest]
end

mutual
theorem Ty.assign_eq_iff (reuse : Bool) : (t : Ty) → (a b : t.Den) →
    (t.assign reuse a b = b ↔ t.Settles (fun _ x y => x = y) reuse a b)
  | .num p, a, b => by
    cases b with
    | mk v e => cases e <;> simp [Ty.assign, NumField.assign, Ty.Settles]
  | .raw _, _, _ => ⟨fun _ => trivial, fun _ => rfl⟩
  | .str, a, b => by
    cases b with
    | mk v e => cases e <;> simp [Ty.assign, StrField.assign, Ty.Settles]
  | .bytes, _, _ => ⟨fun _ => trivial, fun _ => rfl⟩
  | .rep t, a, b => by
    have := listAssign_map_iff (reuse := reuse) (u := id) (fun x y => Ty.assign_eq_iff reuse t x y) a b
    rw [List.map_id, List.map_id] at this
    exact this
  | .msg _ fs, a, b => Fields.assign_eq_iff reuse fs a b
theorem Fields.assign_eq_iff (reuse : Bool) : (fs : Fields) → (a b : fs.Den) →
    (fs.assign reuse a b = b ↔ fs.Settles (fun _ x y => x = y) reuse a b)
  | .nil, _, _ => ⟨fun _ => trivial, fun _ => rfl⟩
  | .cons _ t rest, a, b => by
    obtain ⟨b1, b2⟩ := b
    simp only [Fields.assign, Prod.mk.injEq, Fields.Settles, Ty.assign_eq_iff reuse t, Fields.assign_eq_iff reuse rest]
end

/-- **C32**, exactly.  After `a = b` the object holds the data of `b`, is equal to `b`, and has the text of `b` if and only
if: nothing is left behind; nothing is left behind up to the sign of zeros, and `b` holds no NaN; it shows the same. -/
theorem C32_assign_iff (reuse : Bool) (t : Ty) (a b : t.Den) :
    (t.assign reuse a b = b ↔ t.Settles (fun _ x y => x = y) reuse a b) ∧
    (t.equal (t.assign reuse a b) b = true ↔
      t.NotNan b ∧ t.Settles (fun p x y => p.unsigned0 x = p.unsigned0 y) reuse a b) ∧
    ∀ params : Option Params, t.LabelsOk → t.Distinct → ((params.getD {}).ensureAscii = true → t.Utf8s (t.assign reuse a b)) →
      ((params.getD {}).ensureAscii = true → t.Utf8s b) →
      ((serialize t params (t.assign reuse a b)).out = (serialize t params b).out ↔
        t.Shows (params.getD {}).serializeNull (t.assign reuse a b) b) := by
  refine ⟨t.assign_eq_iff reuse a b, ?_, fun params hl hd ha hb => C77_same_text_iff t params _ b hl (.inr hd) ha hb⟩
  rw [C30_symmetric, t.equal_iff, ← t.assign_unsigned0]
  exact ⟨fun h => ⟨h.1, h.2.symm⟩, fun h => ⟨h.1, h.2.symm⟩⟩

/-- Assigning the empty address to a filled one leaves something behind; assigning a filled one to anything does not. -/
example (reuse : Bool) : ¬ Demo.address.Settles (fun _ x y => x = y) reuse (Demo.addr 7 b!"x") Demo.address.new ∧
    Demo.address.Settles (fun _ x y => x = y) reuse Demo.address.new (Demo.addr 7 b!"x") := by
  refine ⟨fun h => ?_, ?_⟩
  · exact absurd (show b!"x" = [] from h.2.1 rfl) (by decide)
  · exact ⟨fun h => (by cases h), fun h => (by cases h), trivial⟩

end PG
