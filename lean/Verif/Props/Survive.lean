import Verif.Proofs.Survive
import Verif.Props.Finite
import Verif.Props.Fixpoint
import Verif.Props.Failures
import Verif.Props.Show
import Verif.Props.Evolve
/-
C78: exactly the objects that survive a round trip.  With it, exact conditions for C51 (fixed point) and C16.
-/
set_option autoImplicit false
namespace PG

/-! ### C78 -/

/-- **C78.** An object with a number that is not finite, or with a string that contains a NUL byte, is written all the same,
but no message class reads what was written. -/
theorem C78_refused (obf : Bool) (fs : Fields) (params : Option Params) (v : fs.Den) (hl : fs.LabelsOk)
    (hs : fs.Strings (fun s => (params.getD {}).ensureAscii = true → Utf8 s) v)
    (hn : ¬ fs.Writable (fun b => b ≠ 0) (params.getD {}).ensureAscii v) :
    (serialize (.msg obf fs) params v).ret = true ∧
    ∀ (obf' : Bool) (fs' : Fields) (q : Option Params) (w : fs'.Den),
      ∃ r, deserialize (.msg obf' fs') (serialize (.msg obf fs) params v).out q w = some r ∧ r.ret = false := by
  rw [← ctxParams_ascii] at hs hn
  obtain ⟨b, h1, h2⟩ := Fields.write_breaks (ctxParams params) fs v true (ctxParams params).err hl hs hn
  simp only [if_true] at h2
  have e : (serialize (.msg obf fs) params v).out = c!"{" :: (b ++ [c!"}"]) ∧ (serialize (.msg obf fs) params v).ret = true := by
    unfold serialize; simp [Ty.write, h1]
  refine ⟨e.2, fun obf' fs' q w => ?_⟩
  rw [e.1]
  exact breaks_refused h2 obf' fs' q w

mutual
theorem Ty.faithful_of_norm (nulls : Bool) : (t : Ty) → (v : t.Den) → t.norm nulls v = v → t.Faithful nulls v
  | .num p, v, h => by
    obtain ⟨x, e⟩ := v
    cases e with
    | true =>
      have h : (NumField.new : NumField p) = ⟨x, true⟩ := h
      exact ⟨fun _ => (congrArg NumField.value h).symm, fun h => by cases h⟩
    | false =>
      have h : (⟨p.norm x, false⟩ : NumField p) = ⟨x, false⟩ := h
      exact ⟨fun h => (by cases h), fun _ => congrArg NumField.value h⟩
  | .raw _, _, h => h
  | .str, v, h => (congrArg StrField.null (show (⟨v.value, false⟩ : StrField) = v from h)).symm
  | .bytes, _, _ => trivial
  | .rep t, v, h => by
    have h : List.map (t.norm nulls) v = v := h
    intro x hx
    obtain ⟨i, hi, rfl⟩ := List.getElem_of_mem hx
    refine Ty.faithful_of_norm nulls t _ ?_
    have e : (List.map (t.norm nulls) v)[i]? = v[i]? := by rw [h]
    rw [List.getElem?_map, List.getElem?_eq_getElem hi] at e
    simpa using e
  | .msg _ fs, v, h => Fields.faithful_of_norm nulls fs v h
theorem Fields.faithful_of_norm (nulls : Bool) : (fs : Fields) → (v : fs.Den) → fs.norm nulls v = v → fs.Faithful nulls v
  | .nil, _, _ => trivial
  | .cons f t rest, v, h => by
    obtain ⟨v1, v2⟩ := v
    simp only [Fields.norm, Prod.mk.injEq] at h
    refine ⟨fun hf => ?_, fun hf hn he => ?_, fun hf hw => ?_, Fields.faithful_of_norm nulls rest v2 h.2⟩
    · have := h.1; rw [hf, if_pos rfl] at this; exact this.symm
    · have := h.1
      simp only at he
      simp only [hf, hn, he, Bool.false_eq_true, if_false, Bool.not_true, Bool.or_self] at this
      exact this.symm
    · have := h.1
      simp only at hw
      simp only [hf, hw, Bool.false_eq_true, if_false, if_true] at this
      exact Ty.faithful_of_norm nulls t v1 this
end

/-- **C78.** Exactly the objects that survive.  Take a message type whose names can be used and an object whose strings are
UTF-8 (with `ensure_ascii`).  What `serialize` writes is read back into a fresh object if and only if the numbers are finite,
no string contains a NUL byte, and no string in a container is null.  What is read back is known exactly, and it is the same
object again if and only if nothing of it is lost (`Faithful`). -/
theorem C78_survives_iff (obf : Bool) (fs : Fields) (params q : Option Params) (v : fs.Den) (hl : fs.LabelsOk)
    (hd : (Ty.msg obf fs).NamesOk) (hs : fs.Strings (fun s => (params.getD {}).ensureAscii = true → Utf8 s) v) :
    ∃ r, deserialize (.msg obf fs) (serialize (.msg obf fs) params v).out q fs.new = some r ∧
      (r.ret = true ↔ fs.Writable (fun b => b ≠ 0) (params.getD {}).ensureAscii v ∧ fs.NoNulls v) ∧
      (r.ret = true → r.obj = fs.norm (params.getD {}).serializeNull v) ∧
      (r.ret = true ∧ r.obj = v ↔ (fs.Writable (fun b => b ≠ 0) (params.getD {}).ensureAscii v ∧ fs.NoNulls v) ∧
        fs.Faithful (params.getD {}).serializeNull v) := by
  by_cases hw : fs.Writable (fun b => b ≠ 0) (params.getD {}).ensureAscii v
  · by_cases hn : fs.NoNulls v
    · obtain ⟨-, p, h⟩ := C01_round_trip_norm (.msg obf fs) params q v hl hd hw hn rfl
      refine ⟨_, h, ⟨fun _ => ⟨hw, hn⟩, fun _ => rfl⟩, fun _ => rfl, ⟨fun h => ⟨⟨hw, hn⟩, ?_⟩, fun h => ⟨rfl, ?_⟩⟩⟩
      · exact Fields.faithful_of_norm _ fs v h.2
      · exact Ty.norm_faithful _ (.msg obf fs) v h.2
    · obtain ⟨-, h2⟩ := serialize_text lexOk_wide (.msg obf fs) params v hl hw
      obtain ⟨p, hp⟩ := deserialize_text (.msg obf fs) q fs.new Ws.nil h2 (endOk_nil _)
      rw [List.nil_append, List.append_nil] at hp
      have hb := Ty.absorb_bad (params.getD {}).serializeNull (.msg obf fs) v fs.new (Ty.NamesOk.dispatch _ hd) hn
      have hf : decide (RC.error = RC.ok) = true → False := by decide
      refine ⟨_, hp, ?_, ?_, ?_⟩
      · rw [hb]; exact ⟨fun h => (hf h).elim, fun h => absurd h.2 hn⟩
      · rw [hb]; exact fun h => (hf h).elim
      · rw [hb]; exact ⟨fun h => (hf h.1).elim, fun h => absurd h.1.2 hn⟩
  · obtain ⟨-, h⟩ := C78_refused obf fs params v hl hs hw
    obtain ⟨r, h1, h2⟩ := h obf fs q fs.new
    refine ⟨r, h1, ?_, ?_, ?_⟩
    · rw [h2]; exact ⟨fun h => absurd h (by decide), fun h => absurd h.1 hw⟩
    · rw [h2]; exact fun h => absurd h (by decide)
    · rw [h2]; exact ⟨fun h => absurd h.1 (by decide), fun h => absurd h.1.1 hw⟩

/-- The hypotheses are met, and the conditions tell objects apart: one that survives, one with a NUL byte, one with a null
element, and one that is read back but changed. -/
theorem C78_examples :
    outcome (deserialize Demo.address (serialize Demo.address none (Demo.addr 1 [97])).out none Demo.address.new) =
      some (true, Demo.addr 1 [97]) ∧
    (deserialize Demo.address (serialize Demo.address none (Demo.addr 1 [97, 0])).out none Demo.address.new).map (·.ret) = some false ∧
    (deserialize Demo.tagged b!"{\"tags\":[null]}" none Demo.tagged.new).map (·.ret) = some false ∧
    (serialize Demo.tagged none (([⟨[], true⟩], ()) : Demo.tagged.Den)).out = b!"{\"tags\":[null]}" ∧
    outcome (deserialize Demo.measure (serialize Demo.measure none Demo.third).out none Demo.measure.new) =
      some (true, (Demo.at b!"0.333333" : Demo.measure.Den)) := by
  refine ⟨by decide +kernel, by decide +kernel, by decide +kernel, by decide +kernel,
    @of_decide_eq_true _ ((letI := Ty.decEq Demo.measure; inferInstance : DecidableEq (Option (Bool × Demo.measure.Den))) _ _)
      (by decide +kernel)⟩

/-! ### From a schema -/

mutual
/-- No field holds a bare number (they are held in `field<T>`); bare numbers are elements of containers only. -/
def Ty.NoBare : Ty → Prop
  | .rep t => t.NoBare
  | .msg _ fs => fs.NoBare
  | _ => True
/-- No field is a bare number. -/
def Fields.NoBare : Fields → Prop
  | .nil => True
  | .cons _ t rest => (∀ p, t ≠ .raw p) ∧ t.NoBare ∧ rest.NoBare
end

namespace Gen
open Proto

mutual
theorem FieldTy.noBare {msgs : List Message} {ctx : Ctx} {b64 : Bool} : ∀ {f : Field} {t : Ty},
    FieldTy msgs ctx b64 f t → (∀ p, t ≠ .raw p) ∧ t.NoBare
  | _, _, .number .. => ⟨fun _ h => (by cases h), trivial⟩
  | _, _, .numbers .. => ⟨fun _ h => (by cases h), trivial⟩
  | _, _, .string .. => ⟨fun _ h => (by cases h), trivial⟩
  | _, _, .strings .. => ⟨fun _ h => (by cases h), trivial⟩
  | _, _, .bytes .. => ⟨fun _ h => (by cases h), trivial⟩
  | _, _, .octets .. => ⟨fun _ h => (by cases h), trivial⟩
  | _, _, .message _ _ hm ht _ => by
    obtain ⟨o, fs, rfl, h⟩ := MessageTy.noBare ht
    exact ⟨fun _ h => (by cases h), h⟩
  | _, _, .messages _ _ hm ht _ => by
    obtain ⟨o, fs, rfl, h⟩ := MessageTy.noBare ht
    exact ⟨fun _ h => (by cases h), h⟩
theorem MessageTy.noBare {msgs : List Message} {ctx : Ctx} {b64 : Bool} : ∀ {m : Message} {t : Ty},
    MessageTy msgs ctx b64 m t → ∃ obf fs, t = .msg obf fs ∧ fs.NoBare
  | _, _, .mk h => ⟨_, _, rfl, FieldsTy.noBare h⟩
theorem FieldsTy.noBare {msgs : List Message} {ctx : Ctx} {b64 : Bool} :
    ∀ {l : List Field} {fs : Fields}, FieldsTy msgs ctx b64 l fs → fs.NoBare
  | _, _, .nil => trivial
  | _, _, .cons h hr => ⟨(FieldTy.noBare h).1, (FieldTy.noBare h).2, FieldsTy.noBare hr⟩
end

/-- Everything that holds for all message types whose names can be used holds for all generated classes of every regular
schema that is accepted. -/
theorem every_class {P : Ty → Prop}
    (hP : ∀ obf fs, (Ty.msg obf fs).LabelsOk → (Ty.msg obf fs).NamesOk → fs.NoBare → P (.msg obf fs))
    {N : Nat} {text : Bytes} {t : Tree} (h : parse N text = .ok t) {fileName : Bytes}
    (hok : (output fileName t).res = .ok ()) (hr : Regular t) :
    ∃ cs, classesOf (output fileName t).calls = some cs ∧
      ∀ m ∈ t.messages, ∃ ty, cs.find (className m) = some ty ∧ P ty := by
  obtain ⟨cs, h1, _, h2⟩ := C55_classes h hok hr.distinct hr.literal hr.bytes
  refine ⟨cs, h1, fun m hm => ?_⟩
  have hj : ∀ m ∈ (sortTree t).messages, JsonNames (ctxOf t.options) m := by
    intro m hm
    obtain ⟨m', hm', rfl⟩ := sorted_message hm
    obtain ⟨a, b⟩ := hr.json m' hm'
    refine ⟨?_, fun f hf => b f (mem_sortByName.mp hf)⟩
    exact ((((sortByName_perm m'.fields).filter Persistent).map (jsonNameIn (ctxOf t.options))).nodup_iff).mpr a
  have hms : { m with fields := sortByName m.fields } ∈ (sortTree t).messages := List.mem_map_of_mem hm
  obtain ⟨ty, h3, h4⟩ := h2 _ hms
  obtain ⟨h5, h6⟩ := MessageTy.ok hj hms h4
  obtain ⟨o, fs, rfl, h7⟩ := MessageTy.noBare h4
  exact ⟨_, h3, hP o fs h5 h6 h7⟩

end Gen

/-- Exactly the objects that satisfy `Writable`, `NoNulls` and `Faithful` survive as they are. -/
def SurvivesIff (ty : Ty) : Prop :=
  ∀ (params q : Option Params) (v : ty.Den), ty.Strings (fun s => (params.getD {}).ensureAscii = true → Utf8 s) v →
    ((∃ p, deserialize ty (serialize ty params v).out q ty.new = some ⟨true, p, v⟩) ↔
      ty.Writable (fun b => b ≠ 0) (params.getD {}).ensureAscii v ∧ ty.NoNulls v ∧ ty.Faithful (params.getD {}).serializeNull v)

/-- **C78**, from the text of a schema. -/
theorem C78_of_schema {N : Nat} {text : Bytes} {t : Proto.Tree} (h : Proto.parse N text = .ok t) {fileName : Bytes}
    (hok : (Gen.output fileName t).res = .ok ()) (hr : Gen.Regular t) :
    ∃ cs, Gen.classesOf (Gen.output fileName t).calls = some cs ∧
      ∀ m ∈ t.messages, ∃ ty, cs.find (Gen.className m) = some ty ∧ SurvivesIff ty := by
  refine Gen.every_class (fun obf fs hl hd _ params q v hs => ?_) h hok hr
  obtain ⟨r, h1, -, -, h2⟩ := C78_survives_iff obf fs params q v hl hd hs
  constructor
  · rintro ⟨p, hp⟩
    have e := h1.symm.trans hp
    cases e
    obtain ⟨⟨a, b⟩, c⟩ := h2.mp ⟨rfl, rfl⟩
    exact ⟨a, b, c⟩
  · rintro ⟨a, b, c⟩
    obtain ⟨e1, e2⟩ := h2.mpr ⟨⟨a, b⟩, c⟩
    obtain ⟨ret, p, obj⟩ := r
    simp only at e1 e2
    subst e1 e2
    exact ⟨p, h1⟩

/-- What one version of a class makes of the documents of another: accepted exactly if the object can be carried over, which
is always so if the versions are compatible. -/
def Evolves (t₁ t₂ : Ty) : Prop :=
  ∀ (params q : Option Params) (v : t₁.Den), t₁.Writable (fun b => b ≠ 0) (params.getD {}).ensureAscii v →
    (match t₂.carry (params.getD {}).serializeNull t₁ v with
      | some w => outcome (deserialize t₂ (serialize t₁ params v).out q t₂.new) = some (true, w)
      | none => ∃ w, outcome (deserialize t₂ (serialize t₁ params v).out q t₂.new) = some (false, w)) ∧
    (t₂.accepts t₁ = true → t₁.NoNulls v → ∃ w, t₂.carry (params.getD {}).serializeNull t₁ v = some w)

/-- **C69**, from the texts of two schemas: the classes of one read the documents of the classes of the other as `Ty.carry`
says. -/
theorem C69_of_schemas {N₁ N₂ : Nat} {text₁ text₂ : Bytes} {s₁ s₂ : Proto.Tree} (h₁ : Proto.parse N₁ text₁ = .ok s₁)
    (h₂ : Proto.parse N₂ text₂ = .ok s₂) {file₁ file₂ : Bytes} (hok₁ : (Gen.output file₁ s₁).res = .ok ())
    (hok₂ : (Gen.output file₂ s₂).res = .ok ()) (hr₁ : Gen.Regular s₁) (hr₂ : Gen.Regular s₂) :
    ∃ cs₁ cs₂, Gen.classesOf (Gen.output file₁ s₁).calls = some cs₁ ∧ Gen.classesOf (Gen.output file₂ s₂).calls = some cs₂ ∧
      ∀ m₁ ∈ s₁.messages, ∀ m₂ ∈ s₂.messages, ∃ t₁ t₂, cs₁.find (Gen.className m₁) = some t₁ ∧
        cs₂.find (Gen.className m₂) = some t₂ ∧ Evolves t₁ t₂ := by
  obtain ⟨cs₁, a1, b1⟩ := Gen.every_class (P := fun t => (∃ o fs, t = .msg o fs) ∧ t.LabelsOk ∧ t.NamesOk)
    (fun o fs hl hd _ => ⟨⟨o, fs, rfl⟩, hl, hd⟩) h₁ hok₁ hr₁
  obtain ⟨cs₂, a2, b2⟩ := Gen.every_class (P := fun t => (∃ o fs, t = .msg o fs) ∧ t.LabelsOk ∧ t.NamesOk)
    (fun o fs hl hd _ => ⟨⟨o, fs, rfl⟩, hl, hd⟩) h₂ hok₂ hr₂
  refine ⟨cs₁, cs₂, a1, a2, fun m₁ hm₁ m₂ hm₂ => ?_⟩
  obtain ⟨t₁, c1, ⟨o, fs, rfl⟩, d1, e1⟩ := b1 m₁ hm₁
  obtain ⟨t₂, c2, -, d2, e2⟩ := b2 m₂ hm₂
  exact ⟨_, t₂, c1, c2, fun params q v hw => ⟨C69_evolution _ t₂ params q v d1 e1 e2 hw rfl,
    fun hc hn => Ty.accepts_carry _ t₂ _ hc v hn⟩⟩

/-! ### C51, exactly -/

mutual
theorem Ty.utf8s_of_strings : (t : Ty) → (v : t.Den) → t.Strings Utf8 v → t.Utf8s v
  | .num _, _, _ => trivial
  | .raw _, _, _ => trivial
  | .str, v, h => by
    cases he : v.empty with
    | false => exact h he
    | true =>
      have he : (v.null && v.value.isEmpty) = true := he
      simp only [Bool.and_eq_true, List.isEmpty_iff] at he
      show Utf8 v.value
      rw [he.2]
      exact ⟨[], by simp, rfl⟩
  | .bytes, _, _ => trivial
  | .rep t, _, h => fun x hx => Ty.utf8s_of_strings t x (h x hx)
  | .msg _ fs, v, h => Fields.utf8s_of_strings fs v h
theorem Fields.utf8s_of_strings : (fs : Fields) → (v : fs.Den) → fs.Strings Utf8 v → fs.Utf8s v
  | .nil, _, _ => trivial
  | .cons _ t rest, v, h => ⟨fun hf => Ty.utf8s_of_strings t v.1 (h.1 hf), Fields.utf8s_of_strings rest v.2 h.2⟩
end

mutual
theorem Ty.utf8s_new : (t : Ty) → t.Utf8s t.new
  | .num _ => trivial
  | .raw _ => trivial
  | .str => ⟨[], by simp, rfl⟩
  | .bytes => trivial
  | .rep _ => fun x hx => by cases hx
  | .msg _ fs => Fields.utf8s_new fs
theorem Fields.utf8s_new : (fs : Fields) → fs.Utf8s fs.new
  | .nil => trivial
  | .cons _ t rest => ⟨fun _ => Ty.utf8s_new t, Fields.utf8s_new rest⟩
end

mutual
theorem Ty.utf8s_norm (nulls : Bool) : (t : Ty) → (v : t.Den) → t.Utf8s v → t.Utf8s (t.norm nulls v)
  | .num _, _, _ => trivial
  | .raw _, _, _ => trivial
  | .str, _, h => h
  | .bytes, _, _ => trivial
  | .rep t, v, h => by
    intro x hx
    obtain ⟨y, hy, rfl⟩ := List.mem_map.mp hx
    exact Ty.utf8s_norm nulls t y (h y hy)
  | .msg _ fs, v, h => Fields.utf8s_norm nulls fs v h
theorem Fields.utf8s_norm (nulls : Bool) : (fs : Fields) → (v : fs.Den) → fs.Utf8s v → fs.Utf8s (fs.norm nulls v)
  | .nil, _, _ => trivial
  | .cons f t rest, v, h => by
    refine ⟨fun hf => ?_, Fields.utf8s_norm nulls rest v.2 h.2⟩
    show t.Utf8s (if f.transient then t.new else if nulls || !t.empty v.1 then t.norm nulls v.1 else t.new)
    rw [hf, if_neg (by decide)]
    split
    · exact Ty.utf8s_norm nulls t v.1 (h.1 hf)
    · exact t.utf8s_new
end

mutual
theorem Ty.stable_of_shows (nulls : Bool) : (t : Ty) → (v : t.Den) → t.NoBare → t.Shows nulls (t.norm nulls v) v → t.Stable nulls v
  | .num _, _, _, _ => by simp only [Ty.Stable]
  | .raw _, _, _, _ => by simp only [Ty.Stable]
  | .str, v, _, h => by
    show (v.null && v.value.isEmpty) = false
    cases hv : v.value with
    | nil =>
      have : false = v.null := h.2 hv
      rw [← this]; rfl
    | cons a as => simp
  | .bytes, _, _, _ => by simp only [Ty.Stable]
  | .rep t, v, hb, h => by
    have key : ∀ l : List t.Den, Each (t.Shows nulls) (l.map (t.norm nulls)) l → ∀ x ∈ l, t.Stable nulls x := by
      intro l
      induction l with
      | nil => intro _ x hx; cases hx
      | cons a as ih =>
        intro h x hx
        cases h with
        | cons h1 h2 =>
          rcases List.mem_cons.mp hx with rfl | hx
          · exact Ty.stable_of_shows nulls t x hb h1
          · exact ih h2 x hx
    exact key v h
  | .msg _ fs, v, hb, h => Fields.stable_of_shows nulls fs v hb h
theorem Fields.stable_of_shows (nulls : Bool) : (fs : Fields) → (v : fs.Den) → fs.NoBare → fs.Shows nulls (fs.norm nulls v) v →
    fs.Stable nulls v
  | .nil, _, _, _ => trivial
  | .cons f t rest, v, hb, h => by
    refine ⟨fun hf hw => ?_, Fields.stable_of_shows nulls rest v.2 hb.2.2 h.2⟩
    have h1 := h.1 hf
    simp only [Fields.norm, hf, Bool.false_eq_true, if_false, hw, if_true] at h1
    rcases h1 with ⟨hn, -, h1⟩ | ⟨h1, -, h2⟩
    · have := (t.empty_iff v.1).mpr h1
      rw [hn, this] at hw
      cases hw
    · refine ⟨Ty.stable_of_shows nulls t v.1 hb.2.1 h2, fun hn => ?_⟩
      have h1 := h1.resolve_left (by rw [hn]; decide)
      rw [hn] at h1
      exact Ty.visible_of_norm t v.1 hb.1 h1
theorem Ty.visible_of_norm : (t : Ty) → (v : t.Den) → (∀ p, t ≠ .raw p) → ¬ t.Blank (t.norm false v) → t.Visible v
  | .num _, _, _, _ => by simp only [Ty.Visible]
  | .raw p, _, hb, _ => absurd rfl (hb p)
  | .str, _, _, _ => by simp only [Ty.Visible]
  | .bytes, _, _, _ => by simp only [Ty.Visible]
  | .rep t, _, _, _ => by simp only [Ty.Visible]
  | .msg _ fs, v, _, h => Fields.visible_of_norm fs v h
theorem Fields.visible_of_norm : (fs : Fields) → (v : fs.Den) → ¬ fs.Blank (fs.norm false v) → fs.shown v = true
  | .nil, _, h => absurd trivial h
  | .cons f t rest, v, h => by
    simp only [Fields.shown, Bool.or_eq_true, Bool.and_eq_true, Bool.not_eq_true']
    by_cases hr : rest.Blank (rest.norm false v.2)
    · left
      have h1 : ¬ t.Blank (if f.transient then t.new else if false || !t.empty v.1 then t.norm false v.1 else t.new) :=
        fun h' => h ⟨h', hr⟩
      cases hf : f.transient with
      | true => rw [hf, if_pos rfl] at h1; exact absurd ((t.empty_iff _).mp t.empty_new) h1
      | false =>
        refine ⟨rfl, ?_⟩
        cases he : t.empty v.1 with
        | false => rfl
        | true =>
          rw [hf, he] at h1
          exact absurd ((t.empty_iff _).mp t.empty_new) h1
    · right
      exact Fields.visible_of_norm rest v.2 hr
end

/-- **C51**, exactly.  For every message type whose names can be used and every object whose strings are UTF-8 (with
`ensure_ascii`): the text is read back, and what is read back has the same text, if and only if the object can be written,
holds no null string in a container, and is `Stable` (no null string is written, and without `serialize_null` no message
whose only content is transient). -/
theorem C51_fixed_point_iff (obf : Bool) (fs : Fields) (params q : Option Params) (v : fs.Den) (hl : fs.LabelsOk)
    (hd : (Ty.msg obf fs).NamesOk) (hb : fs.NoBare)
    (hs : fs.Strings (fun s => (params.getD {}).ensureAscii = true → Utf8 s) v) :
    (∃ w p, deserialize (.msg obf fs) (serialize (.msg obf fs) params v).out q fs.new = some ⟨true, p, w⟩ ∧
      (serialize (.msg obf fs) params w).out = (serialize (.msg obf fs) params v).out) ↔
    fs.Writable (fun b => b ≠ 0) (params.getD {}).ensureAscii v ∧ fs.NoNulls v ∧ fs.Stable (params.getD {}).serializeNull v := by
  constructor
  · rintro ⟨w, p, h1, h2⟩
    obtain ⟨r, h3, h4, h5, -⟩ := C78_survives_iff obf fs params q v hl hd hs
    cases h3.symm.trans h1
    obtain ⟨hw, hn⟩ := h4.mp rfl
    have e : w = fs.norm (params.getD {}).serializeNull v := h5 rfl
    subst e
    refine ⟨hw, hn, ?_⟩
    have hu : (params.getD {}).ensureAscii = true → (Ty.msg obf fs).Utf8s v := fun ha =>
      Fields.utf8s_of_strings fs v (Fields.strings_mono (fun s h => h ha) fs v hs)
    exact Fields.stable_of_shows _ fs v hb ((C77_same_text_iff (.msg obf fs) params _ v hl (.inr (Ty.NamesOk.distinct _ hd))
      (fun ha => Ty.utf8s_norm _ (.msg obf fs) v (hu ha)) hu).mp h2)
  · rintro ⟨hw, hn, hst⟩
    obtain ⟨w, p, h1, h2⟩ := C51_fixed_point_partial (.msg obf fs) params q v hl hd hw hn rfl hst
    exact ⟨w, p, h1, by rw [h2]⟩

/-- Writing is a fixed point of reading exactly for the objects that satisfy the three conditions. -/
def FixedIff (ty : Ty) : Prop :=
  ∀ (params q : Option Params) (v : ty.Den), ty.Strings (fun s => (params.getD {}).ensureAscii = true → Utf8 s) v →
    ((∃ w p, deserialize ty (serialize ty params v).out q ty.new = some ⟨true, p, w⟩ ∧
        (serialize ty params w).out = (serialize ty params v).out) ↔
      ty.Writable (fun b => b ≠ 0) (params.getD {}).ensureAscii v ∧ ty.NoNulls v ∧ ty.Stable (params.getD {}).serializeNull v)

/-- **C51**, from the text of a schema. -/
theorem C51_of_schema {N : Nat} {text : Bytes} {t : Proto.Tree} (h : Proto.parse N text = .ok t) {fileName : Bytes}
    (hok : (Gen.output fileName t).res = .ok ()) (hr : Gen.Regular t) :
    ∃ cs, Gen.classesOf (Gen.output fileName t).calls = some cs ∧
      ∀ m ∈ t.messages, ∃ ty, cs.find (Gen.className m) = some ty ∧ FixedIff ty :=
  Gen.every_class (fun obf fs hl hd hb params q v hs => C51_fixed_point_iff obf fs params q v hl hd hb hs) h hok hr

/-! ### C16, exactly -/

mutual
/-- No string field is part of the object itself (containers are empty when the object is). -/
def Ty.NullSafe : Ty → Prop
  | .str => False
  | .msg _ fs => fs.NullSafe
  | _ => True
/-- No persistent field holds a string. -/
def Fields.NullSafe : Fields → Prop
  | .nil => True
  | .cons f t rest => (f.transient = false → t.NullSafe) ∧ rest.NullSafe
end

mutual
theorem Ty.empty_again_iff : (t : Ty) → (v : t.Den) → t.empty v = true → (t.empty (t.norm true v) = true ↔ t.NullSafe)
  | .num _, v, h => by
    have h : v.empty = true := h
    simp only [Ty.norm, h, if_true, Ty.NullSafe, iff_true]; rfl
  | .raw p, v, h => ⟨fun _ => trivial, fun _ => p.norm_zero_empty v h⟩
  | .str, v, h => by
    simp only [Ty.norm, Ty.NullSafe, iff_false]
    simp [Ty.empty, StrField.empty]
  | .bytes, v, h => ⟨fun _ => trivial, fun _ => h⟩
  | .rep t, v, h => by
    cases v with
    | nil => exact ⟨fun _ => trivial, fun _ => rfl⟩
    | cons a as => cases h
  | .msg _ fs, v, h => Fields.empty_again_iff fs v h
theorem Fields.empty_again_iff : (fs : Fields) → (v : fs.Den) → fs.empty v = true → (fs.empty (fs.norm true v) = true ↔ fs.NullSafe)
  | .nil, _, _ => ⟨fun _ => trivial, fun _ => rfl⟩
  | .cons f t rest, v, h => by
    simp only [Fields.empty, Bool.and_eq_true] at h
    simp only [Fields.empty, Fields.norm, Bool.and_eq_true, Fields.NullSafe, Fields.empty_again_iff rest v.2 h.2]
    refine and_congr_left fun _ => ?_
    cases hf : f.transient with
    | true => simp [t.empty_new]
    | false => simpa using Ty.empty_again_iff t v.1 h.1
end

theorem Fields.get_norm : (fs : Fields) → (v : fs.Den) → (i : Nat) → (t : Ty) → (x : t.Den) →
    fs.get i v = some ⟨t, x⟩ → fs.get i (fs.norm true v) = some ⟨t, t.norm true x⟩
  | .nil, _, _, _, _, hg => by simp [Fields.get] at hg
  | .cons f t rest, v, i, u, x, hg => by
    unfold Fields.get at hg ⊢
    simp only [Fields.norm]
    cases hf : f.transient with
    | true =>
      simp only [hf, if_true] at hg ⊢
      exact Fields.get_norm rest v.2 i u x hg
    | false =>
      simp only [hf, Bool.false_eq_true, if_false] at hg ⊢
      cases i with
      | zero =>
        simp only [Option.some.injEq] at hg ⊢
        injection hg with h1 h2
        subst h1
        have h2 := eq_of_heq h2
        subst h2
        simp
      | succ i =>
        simp only at hg ⊢
        exact Fields.get_norm rest v.2 i u x hg

/-- **C16**, exactly.  With `serialize_null`, a field that was empty is empty again in the object that is read if and only if
no string is part of it. -/
theorem C16_empty_again_iff (obf : Bool) (fs : Fields) (params q : Option Params) (v : fs.Den) (hl : fs.LabelsOk)
    (hd : (Ty.msg obf fs).NamesOk) (hp : (params.getD {}).serializeNull = true)
    (hw : fs.Writable (fun b => b ≠ 0) (params.getD {}).ensureAscii v) (hn : fs.NoNulls v) :
    ∃ p v', deserialize (.msg obf fs) (serialize (.msg obf fs) params v).out q fs.new = some ⟨true, p, v'⟩ ∧
      ∀ i t x, fs.get i v = some ⟨t, x⟩ → t.empty x = true →
        ∃ x', fs.get i v' = some ⟨t, x'⟩ ∧ (t.empty x' = true ↔ t.NullSafe) := by
  obtain ⟨-, p, h⟩ := C01_round_trip_norm (.msg obf fs) params q v hl hd hw hn rfl
  rw [hp] at h
  exact ⟨p, _, h, fun i t x hg he => ⟨_, fs.get_norm v i t x hg, t.empty_again_iff x he⟩⟩

/-- The hypotheses are met by a fresh object of a type that has fields of both sorts. -/
example : Demo.person.LabelsOk ∧ Demo.person.NamesOk ∧ Demo.personFields.Writable (fun b => b ≠ 0) false Demo.personFields.new ∧
    Demo.personFields.NoNulls Demo.personFields.new ∧ ¬ Demo.address.NullSafe ∧ (Ty.num (.int .u64)).NullSafe := by
  refine ⟨Demo.person_labels, Demo.person_names, ?_, ?_, fun h => h.2.1 rfl, trivial⟩
  · exact (Fields.writable_iff _ _ _ _).mpr ⟨Fields.strings_of_empty _ _ (by decide +kernel), Fields.finite_of_empty _ _ (by decide +kernel)⟩
  · exact nonulls_of_empty Demo.person _ (by decide +kernel)

end PG
