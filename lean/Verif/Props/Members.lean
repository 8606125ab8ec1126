import Verif.Props.Demo
import Verif.Proofs.Members
/-
C14, C15, C17, C19, C26, C27, C33: how the members of a document reach the fields.
-/
set_option autoImplicit false
namespace PG

/-- `bs` is white space, a text of `j`, and anything at all behind it (for a literal or a number: anything that does not
continue the token). -/
def DocText (j : J) (bs : Bytes) : Prop := ∃ w b rest, bs = w ++ (b ++ rest) ∧ Ws w ∧ JVal wide j b ∧ EndOk j rest

/-- What a call delivers: return value and object (`none` would be: it does not return). -/
def outcome {α : Type} (r : Option (DRes α)) : Option (Bool × α) := r.map (fun d => (d.ret, d.obj))

/-- A document is read as its JSON value. -/
theorem doc_outcome (t : Ty) {j : J} {bs : Bytes} (params : Option Params) (v : t.Den) (h : DocText j bs) :
    outcome (deserialize t bs params v) = some (decide ((t.absorb j v).1 = .ok), (t.absorb j v).2) := by
  obtain ⟨w, b, rest, rfl, hw, hj, hr⟩ := h
  obtain ⟨p, hp⟩ := deserialize_text t params v hw hj hr
  rw [hp]; rfl

/-- C27.  Whatever follows the top-level value is irrelevant. -/
theorem C27_trailing_ignored (obf : Bool) (fs : Fields) (ms : JM) (w b r1 r2 : Bytes) (p1 p2 : Option Params) (v : fs.Den)
    (hw : Ws w) (hj : JVal wide (.obj ms) b) :
    outcome (deserialize (.msg obf fs) (w ++ (b ++ r1)) p1 v) = outcome (deserialize (.msg obf fs) (w ++ (b ++ r2)) p2 v) := by
  rw [doc_outcome _ _ _ ⟨w, b, r1, rfl, hw, hj, trivial⟩, doc_outcome _ _ _ ⟨w, b, r2, rfl, hw, hj, trivial⟩]

/-- Keep the members for which `f` gives a value. -/
def JM.pick (f : Bytes → J → Option J) : JM → JM
  | .nil => .nil
  | .cons k j t => match f k j with
    | some j' => .cons k j' (t.pick f)
    | none => t.pick f

/-- Apply a function to all elements. -/
def JL.map (f : J → J) : JL → JL
  | .nil => .nil
  | .cons j t => .cons (f j) (t.map f)

mutual
/-- Remove, at every level, the members whose name the schema does not know. -/
def Ty.prune : Ty → J → J
  | .rep t, .arr xs => .arr (xs.map t.prune)
  | .msg _ fs, .obj ms => .obj (ms.pick fs.pruneAt)
  | _, j => j
/-- The pruned value of a member; `none` if no persistent field has this name. -/
def Fields.pruneAt : Fields → Bytes → J → Option J
  | .nil, _, _ => none
  | .cons f t rest, k, j => if f.transient = false ∧ f.wlabel = k then some (t.prune j) else rest.pruneAt k j
end

theorem absorbElems_map {α : Type} (f : J → RC × α) (g : J → J) (h : ∀ j, f (g j) = f j) (xs : JL) (v : List α) :
    absorbElems f (xs.map g) v = absorbElems f xs v := by
  match xs with
  | .nil => rfl
  | .cons j t =>
    simp only [JL.map, absorbElems, h]
    cases hj : f j with
    | mk rc x => cases rc <;> simp only <;> first | rfl | exact absorbElems_map f g h t _

theorem absorbMembers_pick {α : Type} (f : Bytes → J → α → RC × α) (g : Bytes → J → Option J)
    (h1 : ∀ k j j' v, g k j = some j' → f k j' v = f k j v) (h2 : ∀ k j v, g k j = none → f k j v = (.nil, v)) (ms : JM) (v : α) :
    absorbMembers f (ms.pick g) v = absorbMembers f ms v := by
  match ms with
  | .nil => rfl
  | .cons k j t =>
    simp only [JM.pick]
    cases hg : g k j with
    | none =>
      simp only [absorbMembers, h2 k j v hg]
      exact absorbMembers_pick f g h1 h2 t v
    | some j' =>
      simp only [absorbMembers, h1 k j j' v hg]
      cases hj : f k j v with
      | mk rc x => cases rc <;> simp only <;> first | rfl | exact absorbMembers_pick f g h1 h2 t _

theorem pruneAt_none : (fs : Fields) → (k : Bytes) → (j : J) → fs.pruneAt k j = none → k ∉ fs.labels
  | .nil, _, _, _ => by simp [Fields.labels]
  | .cons f t rest, k, j, h => by
    unfold Fields.pruneAt at h
    unfold Fields.labels
    cases hf : f.transient with
    | true => simp only [if_true]; exact pruneAt_none rest k j (by simpa [hf] using h)
    | false =>
      simp only [hf, true_and] at h
      by_cases hk : f.wlabel = k
      · simp [hk] at h
      · simp only [hk, if_false] at h
        have := pruneAt_none rest k j h
        simp only [Bool.false_eq_true, if_false, List.mem_cons, not_or]
        exact ⟨fun e => hk e.symm, this⟩

theorem member_none {obf : Bool} {fs : Fields} (hk : KeysMatch obf fs) {k : Bytes} (h : k ∉ fs.labels) (j : J) (v : fs.Den) :
    fs.member obf k j v = (.nil, v) := by
  unfold Fields.member
  rw [(indexOf_none hk k).mpr h]

mutual
theorem Ty.absorb_prune : (t : Ty) → t.NamesOk → (j : J) → (v : t.Den) → t.absorb (t.prune j) v = t.absorb j v
  | .num _, _, _, _ => by simp only [Ty.prune]
  | .raw _, _, _, _ => by simp only [Ty.prune]
  | .str, _, _, _ => by simp only [Ty.prune]
  | .bytes, _, _, _ => by simp only [Ty.prune]
  | .rep t, h, j, v => by
    unfold Ty.NamesOk at h
    cases j with
    | arr xs =>
      simp only [Ty.prune, Ty.absorb]
      exact absorbElems_map _ _ (fun j => Ty.absorb_prune t h j t.new) xs v
    | _ => simp only [Ty.prune]
  | .msg obf fs, h, j, v => by
    unfold Ty.NamesOk at h
    cases j with
    | obj ms =>
      simp only [Ty.prune]
      rw [absorb_obj, absorb_obj]
      refine absorbMembers_pick _ _ ?_ ?_ ms v
      · intro k j j' v hg
        unfold Fields.member
        cases hi : indexOf obf fs k with
        | none => rfl
        | some i =>
          simp only
          have hmem : k ∈ fs.labels := by
            apply Decidable.byContradiction
            intro h'
            rw [(indexOf_none h.1 k).mpr h'] at hi
            cases hi
          obtain ⟨m, hm⟩ := List.getElem?_of_mem hmem
          have := dispatches_of h.1 h.2.1 m k hm
          rw [hi] at this
          cases this
          exact Fields.absorb_prune fs h.2.2 h.2.1 i k hm j j' hg v
      · intro k j v hg
        exact member_none h.1 (pruneAt_none fs k j hg) j v
    | _ => simp only [Ty.prune]
theorem Fields.absorb_prune : (fs : Fields) → fs.NamesOk → fs.labels.Nodup → (i : Nat) → (k : Bytes) → fs.labels[i]? = some k →
    (j j' : J) → fs.pruneAt k j = some j' → (v : fs.Den) → fs.absorbAt i j' v = fs.absorbAt i j v
  | .nil, _, _, _, _, h, _, _, _, _ => by simp [Fields.labels] at h
  | .cons f t rest, hn, hd, i, k, hl, j, j', hp, v => by
    unfold Fields.NamesOk at hn
    unfold Fields.labels at hd hl
    unfold Fields.pruneAt at hp
    unfold Fields.absorbAt
    cases hf : f.transient with
    | true =>
      simp only [hf, if_true] at hd hl ⊢
      simp only [hf, Bool.true_eq_false, false_and, if_false] at hp
      rw [Fields.absorb_prune rest hn.2 hd i k hl j j' hp v.2]
    | false =>
      simp only [hf, Bool.false_eq_true, if_false, List.nodup_cons] at hd hl ⊢
      simp only [hf, true_and] at hp
      cases i with
      | zero =>
        simp only [List.getElem?_cons_zero, Option.some.injEq] at hl
        simp only [hl, if_true, Option.some.injEq] at hp
        simp only
        rw [← hp, Ty.absorb_prune t hn.1 j v.1]
      | succ i =>
        simp only [List.getElem?_cons_succ] at hl
        have hne : f.wlabel ≠ k := by
          rintro rfl
          exact hd.1 (List.mem_of_getElem? hl)
        simp only [hne, if_false] at hp
        simp only
        rw [Fields.absorb_prune rest hn.2 hd.2 i k hl j j' hp v.2]
end

/-- C14 for values written with the lexical grammar `wide` (all of JSON except `\u` escapes below U+0080): two documents
that differ only in members unknown to the schema -- at any depth, any number, any position, any value, any layout -- have
the same outcome.
Missing from the full statement: unknown values that contain an escape `\u0000`..`\u007f`, see
`C14_unknown_member_rejected`. -/
theorem C14_unknown_ignored_partial (t : Ty) (hn : t.NamesOk) (j1 j2 : J) (h : t.prune j1 = t.prune j2) (d1 d2 : Bytes)
    (h1 : DocText j1 d1) (h2 : DocText j2 d2) (p1 p2 : Option Params) (v : t.Den) :
    outcome (deserialize t d1 p1 v) = outcome (deserialize t d2 p2 v) := by
  rw [doc_outcome t p1 v h1, doc_outcome t p2 v h2, ← Ty.absorb_prune t hn j1, h, Ty.absorb_prune t hn j2]

/-- `{"x":[{"a":null},1],"number":5}` and `{"number":5}` differ in an unknown member. -/
example : Demo.address.NamesOk ∧
    Demo.address.prune (.obj (.cons b!"x" (.arr (.cons (.obj (.cons b!"a" .null .nil)) (.cons (.num b!"1") .nil)))
      (.cons b!"number" (.num b!"5") .nil))) = Demo.address.prune (.obj (.cons b!"number" (.num b!"5") .nil)) := by
  exact ⟨by decide +kernel, rfl⟩

/-- C14 does not hold in full: an unknown member whose value is the JSON string "\u0041" makes the call fail. -/
theorem C14_unknown_member_rejected :
    JVal rfc (.obj (.cons b!"x" (.str b!"A") .nil)) b!"{\"x\":\"\\u0041\"}" ∧
    outcome (deserialize Demo.address b!"{\"x\":\"\\u0041\"}" none Demo.address.new) = some (false, Demo.address.new) ∧
    outcome (deserialize Demo.address b!"{}" none Demo.address.new) = some (true, Demo.address.new) := by
  refine ⟨?_, by decide +kernel, by decide +kernel⟩
  refine ⟨b!"\"x\":\"\\u0041\"", rfl, [], b!"x", [], [], b!"\"\\u0041\"", [], rfl, Ws.nil, ?_, Ws.nil, Ws.nil, ?_, Ws.nil⟩
  · exact .raw (by decide) .nil
  · refine ⟨b!"\\u0041", rfl, ?_⟩
    exact StrChars.uni (h := b!"0041") (cp := 0x41) (t := []) (c := [])
      ⟨48, 48, 52, 49, 0, 0, 4, 1, rfl, .inl (by decide), .inl (by decide), .inl (by decide), .inl (by decide), rfl⟩
      (by decide) trivial .nil

/-- The field keeps its value across an object in which its name is absent or only ever given `null`. -/
theorem absorbMembers_keep {obf : Bool} {fs : Fields} (hk : KeysMatch obf fs) (hn : fs.labels.Nodup) {i : Nat} {lab : Bytes}
    (hl : fs.labels[i]? = some lab) (t : Ty) (ht : t ≠ .str) (x : t.Den) (ms : JM) (v : fs.Den)
    (hg : fs.get i v = some ⟨t, x⟩) (h : ∀ j ∈ ms.valuesOf lab, j = .null) :
    fs.get i (absorbMembers (fs.member obf) ms v).2 = some ⟨t, x⟩ := by
  match ms with
  | .nil => exact hg
  | .cons k j ms =>
    have hnull : t.absorb .null x = (.nil, x) := by
      cases t with
      | str => exact absurd rfl ht
      | num p => cases p <;> simp [Ty.absorb, Prim.absorb]
      | raw p => cases p <;> simp [Ty.absorb, Prim.absorb]
      | bytes => simp [Ty.absorb]
      | rep t => simp [Ty.absorb]
      | msg o fs => simp [Ty.absorb]
    have h1 : fs.get i (fs.member obf k j v).2 = some ⟨t, x⟩ := by
      unfold Fields.member
      cases hio : indexOf obf fs k with
      | none => exact hg
      | some i' =>
        simp only
        by_cases hii : i' = i
        · subst hii
          have hkl := (indexOf_iff hk hn hl k).mp hio
          have hj : j = .null := h j (by simp [JM.valuesOf, hkl])
          subst hj
          have := (absorbAt_get_same fs i' .null v t x hg).2
          rw [hnull] at this
          exact this
        · rw [absorbAt_get_other fs i' i j v hii, hg]
    have h' : ∀ j ∈ ms.valuesOf lab, j = .null := by
      intro j' hj'
      apply h
      unfold JM.valuesOf
      split
      · exact List.mem_cons_of_mem _ hj'
      · exact hj'
    unfold absorbMembers
    cases hm : fs.member obf k j v with
    | mk rc v1 =>
      rw [hm] at h1
      cases rc with
      | ok => exact absorbMembers_keep hk hn hl t ht x ms v1 h1 h'
      | nil => exact absorbMembers_keep hk hn hl t ht x ms v1 h1 h'
      | error => exact h1
      | fuel => exact h1

/-- C15.  A field that is not a string keeps the value it had when its name does not occur in the document, or occurs
with the value `null` only -- whether the call succeeds or fails. -/
theorem C15_absent_or_null_keeps (obf : Bool) (fs : Fields) (hk : KeysMatch obf fs) (hn : fs.labels.Nodup) (i : Nat) (lab : Bytes)
    (hl : fs.labels[i]? = some lab) (t : Ty) (ht : t ≠ .str) (x : t.Den) (v : fs.Den) (hg : fs.get i v = some ⟨t, x⟩)
    (ms : JM) (h : ∀ j ∈ ms.valuesOf lab, j = .null) (d : Bytes) (hd : DocText (.obj ms) d) (p : Option Params) :
    ∃ ret v', outcome (deserialize (.msg obf fs) d p v) = some (ret, v') ∧ fs.get i v' = some ⟨t, x⟩ := by
  refine ⟨_, _, doc_outcome (.msg obf fs) p v hd, ?_⟩
  rw [absorb_obj]
  exact absorbMembers_keep hk hn hl t ht x ms v hg h

/-- `{"street":"x","number":null}` on an address whose number is -42. -/
example : DocText (.obj (.cons b!"street" (.str b!"x") (.cons b!"number" .null .nil))) b!"{\"street\":\"x\",\"number\":null}" ∧
    (∃ obf fs, Demo.address = .msg obf fs ∧ fs.labels[0]? = some b!"number") ∧
    outcome (deserialize Demo.address b!"{\"street\":\"x\",\"number\":null}" none Demo.home) =
      some (true, Demo.addr (-42) b!"x") := by
  refine ⟨⟨[], b!"{\"street\":\"x\",\"number\":null}", [], rfl, Ws.nil, ?_, trivial⟩, ⟨_, _, rfl, rfl⟩, by decide +kernel⟩
  refine ⟨b!"\"street\":\"x\",\"number\":null", rfl, [], b!"street", [], [], b!"\"x\"", [], b!"\"number\":null", rfl,
    Ws.nil, chars_raw _ (by decide), Ws.nil, Ws.nil, ⟨b!"x", rfl, chars_raw _ (by decide)⟩, Ws.nil, ?_⟩
  exact ⟨[], b!"number", [], [], b!"null", [], rfl, Ws.nil, chars_raw _ (by decide), Ws.nil, Ws.nil, rfl, Ws.nil⟩

/-- Strings are different: `null` replaces the old value by the empty string. -/
theorem C15_null_resets_strings : outcome (deserialize Demo.address b!"{\"street\":null}" none Demo.home) =
    some (true, Demo.addr (-42) []) := by decide +kernel

/-- C19, what several occurrences do in general: the value of a field after a successful call is what reading all values
given to its name, in document order, makes of the old value. -/
theorem C19_occurrences_in_order (obf : Bool) (fs : Fields) (hk : KeysMatch obf fs) (hn : fs.labels.Nodup) (i : Nat) (lab : Bytes)
    (hl : fs.labels[i]? = some lab) (t : Ty) (x : t.Den) (v v' : fs.Den) (hg : fs.get i v = some ⟨t, x⟩)
    (ms : JM) (d : Bytes) (hd : DocText (.obj ms) d) (p : Option Params)
    (h : outcome (deserialize (.msg obf fs) d p v) = some (true, v')) :
    fs.get i v' = some ⟨t, t.absorbAll (ms.valuesOf lab) x⟩ := by
  rw [doc_outcome (.msg obf fs) p v hd, absorb_obj] at h
  simp only [Option.some.injEq, Prod.mk.injEq, decide_eq_true_eq] at h
  exact absorbMembers_get hk hn hl ms v v' t x hg (Prod.ext h.1 h.2)

theorem absorbAll_append (t : Ty) (js js' : List J) (x : t.Den) :
    t.absorbAll (js ++ js') x = t.absorbAll js' (t.absorbAll js x) := by
  induction js generalizing x with
  | nil => rfl
  | cons j js ih => simp only [List.cons_append, Ty.absorbAll, ih]

/-- Scalar fields: the last occurrence wins (numbers and booleans: the last one that is not `null`). -/
theorem C19_last_wins (t : Ty) (ht : t = .str ∨ ∃ p, t = .num p) (js : List J) (j : J) (nulls : List J) (hj : j ≠ .null)
    (hnulls : (∀ n ∈ nulls, n = .null) ∧ (t = .str → nulls = [])) (x : t.Den) :
    t.absorbAll (js ++ j :: nulls) x = (t.absorb j t.new).2 := by
  rw [absorbAll_append]
  generalize t.absorbAll js x = y
  rcases ht with rfl | ⟨p, rfl⟩
  · rw [hnulls.2 rfl]
    simp only [Ty.absorbAll]
    cases j <;> simp only [Ty.absorb] 
  · have hne : (p.absorb j p.zero).1 ≠ .nil := by
      cases p <;> cases j <;> simp [Prim.absorb] <;> exact absurd rfl hj
    have key : ∀ (ns : List J), (∀ n ∈ ns, n = .null) → ∀ y : (Ty.num p).Den, (Ty.num p).absorbAll ns y = y := by
      intro ns
      induction ns with
      | nil => intro _ y; rfl
      | cons n ns ih =>
        intro h y
        have hn := h n (by simp)
        subst hn
        have : ((Ty.num p).absorb .null y) = (.nil, y) := by cases p <;> simp [Ty.absorb, Prim.absorb]
        simp only [Ty.absorbAll, this]
        exact ih (fun n hn => h n (by simp [hn])) y
    show (Ty.num p).absorbAll nulls ((Ty.num p).absorb j y).2 = _
    rw [key nulls hnulls.1]
    simp only [Ty.absorb, hne, if_false]

/-- The elements of an array of acceptable values. -/
theorem absorbElems_ok {α : Type} (f : J → RC × α) (xs : JL) (v : List α) (h : ∀ j ∈ xs.toList, (f j).1 = .ok) :
    absorbElems f xs v = (.ok, v ++ xs.toList.map (fun j => (f j).2)) := by
  match xs with
  | .nil => simp [absorbElems, JL.toList]
  | .cons j t =>
    have hj := h j (by simp [JL.toList])
    have ih := absorbElems_ok f t (v ++ [(f j).2]) (fun j hj => h j (by simp [JL.toList, hj]))
    simp only [absorbElems, JL.toList, List.map_cons]
    cases hf : f j with
    | mk rc x =>
      rw [hf] at hj ih
      simp only at hj ih
      subst hj
      simp only
      rw [ih]
      simp

/-- C26.  An array whose elements are all acceptable is appended, in document order, to what the container held. -/
theorem C26_arrays_append (t : Ty) (xs : JL) (v : List t.Den) (h : ∀ j ∈ xs.toList, (t.absorb j t.new).1 = .ok) (d : Bytes)
    (hd : DocText (.arr xs) d) (p : Option Params) :
    outcome (deserialize (.rep t) d p v) = some (true, v ++ xs.toList.map (fun j => (t.absorb j t.new).2)) := by
  rw [doc_outcome (.rep t) p v hd]
  have := absorbElems_ok (fun j => t.absorb j t.new) xs v h
  simp only [Ty.absorb, this]
  rfl

/-- The same inside a message: occurrences of the field's name are concatenated. -/
theorem C26_repeated_field_accumulates (t : Ty) (as : List JL) (v : List t.Den)
    (h : ∀ xs ∈ as, ∀ j ∈ xs.toList, (t.absorb j t.new).1 = .ok) :
    (Ty.rep t).absorbAll (as.map J.arr) v = v ++ (as.flatMap JL.toList).map (fun j => (t.absorb j t.new).2) := by
  induction as generalizing v with
  | nil => simp [Ty.absorbAll]
  | cons xs as ih =>
    have hx := absorbElems_ok (fun j => t.absorb j t.new) xs v (h xs (by simp))
    simp only [List.map_cons, Ty.absorbAll, Ty.absorb, hx]
    rw [ih _ (fun ys hys => h ys (by simp [hys]))]
    simp

/-- C19 for repeated fields, put together: the field ends up with the old elements followed by the elements of all
occurrences. -/
theorem C19_repeated_concatenated (obf : Bool) (fs : Fields) (hk : KeysMatch obf fs) (hn : fs.labels.Nodup) (i : Nat) (lab : Bytes)
    (hl : fs.labels[i]? = some lab) (t : Ty) (x : List t.Den) (v v' : fs.Den) (hg : fs.get i v = some ⟨.rep t, x⟩)
    (ms : JM) (as : List JL) (hms : ms.valuesOf lab = as.map J.arr) (hok : ∀ xs ∈ as, ∀ j ∈ xs.toList, (t.absorb j t.new).1 = .ok)
    (d : Bytes) (hd : DocText (.obj ms) d) (p : Option Params)
    (h : outcome (deserialize (.msg obf fs) d p v) = some (true, v')) :
    fs.get i v' = some ⟨.rep t, x ++ (as.flatMap JL.toList).map (fun j => (t.absorb j t.new).2)⟩ := by
  rw [C19_occurrences_in_order obf fs hk hn i lab hl (.rep t) x v v' hg ms d hd p h, hms]
  exact congrArg (fun y => (some ⟨Ty.rep t, y⟩ : Option (Σ t : Ty, t.Den))) (C26_repeated_field_accumulates t as x hok)

/-- `{"number":1,"street":"a","number":2,"street":"b"}`, and a repeated field given twice. -/
example : outcome (deserialize Demo.address b!"{\"number\":1,\"street\":\"a\",\"number\":2,\"street\":\"b\"}" none Demo.home) =
    some (true, Demo.addr 2 b!"b") ∧
    outcome (deserialize Demo.tagged b!"{\"tags\":[\"b\"],\"tags\":[\"c\",\"d\"]}" none (Demo.tags [b!"a"])) =
      some (true, Demo.tags [b!"a", b!"b", b!"c", b!"d"]) := by decide +kernel

end PG
