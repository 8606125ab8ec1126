import Verif.Proofs.Depth
import Verif.Proofs.GenLabel
import Verif.Props.Members
import Verif.Props.Demo
/-
C71: how much of the call stack `deserialize` takes.
-/
set_option autoImplicit false
namespace PG
open IStream

/-- C71.  The levels used for a document: never more than the document has for the type, and exactly that many if the document
is accepted. -/
theorem C71_levels (t : Ty) {j : J} {bs : Bytes} (params : Option Params) (v : t.Den) (h : DocText j bs) :
    deserializeDepth t bs params v ≤ t.levels j ∧
      (∀ v', outcome (deserialize t bs params v) = some (true, v') → deserializeDepth t bs params v = t.levels j) := by
  have ho := doc_outcome t params v h
  obtain ⟨w, b, rest, rfl, hw, hj, hr⟩ := h
  have ha : At (Tz.open' (IStream.open' (w ++ (b ++ rest))) (ctxParams params).err) (b ++ rest) :=
    (At.open _ _).dropWs hw
  have hU := Ty.readDepth_uses t (fuelFor (w ++ (b ++ rest))) j b rest _ v hj (by unfold fuelFor; simp; omega) hr ha
  refine ⟨hU.1, fun v' hv => hU.2 ?_⟩
  rw [ho] at hv
  simp only [Option.some.injEq, Prod.mk.injEq, decide_eq_true_eq] at hv
  rw [hv.1]
  decide

mutual
theorem Ty.levels_le : (t : Ty) → ∀ (j : J), t.Knows j → t.levels j ≤ t.height
  | .rep t, j, h => by
    cases j with
    | arr xs =>
      simp only [Ty.levels, Ty.height]
      simp only [Ty.Knows] at h
      have : ∀ xs : JL, xs.Each t.Knows → xs.most t.levels ≤ t.height := by
        intro xs
        apply JL.rec (motive_1 := fun _ => True) (motive_2 := fun xs => xs.Each t.Knows → xs.most t.levels ≤ t.height)
          (motive_3 := fun _ => True)
        all_goals (try (intros; trivial))
        · intro _; exact Nat.zero_le _
        · intro j xs _ ih hE
          exact Nat.max_le.mpr ⟨Ty.levels_le t j hE.1, ih hE.2⟩
      exact Nat.add_le_add_left (this xs h) 1
    | _ => simp [Ty.levels, Ty.height]
  | .msg obf fs, j, h => by
    cases j with
    | obj ms =>
      simp only [Ty.levels, Ty.height]
      simp only [Ty.Knows] at h
      have : ∀ ms : JM, ms.Each (fun k j => ∃ i, indexOf obf fs k = some i ∧ fs.KnowsAt i j) → ms.most (fun k j =>
          match indexOf obf fs k with
          | none => j.levels
          | some i => fs.levelsAt i j) ≤ fs.height := by
        intro ms
        apply JM.rec (motive_1 := fun _ => True) (motive_2 := fun _ => True)
          (motive_3 := fun ms => ms.Each (fun k j => ∃ i, indexOf obf fs k = some i ∧ fs.KnowsAt i j) → ms.most (fun k j =>
          match indexOf obf fs k with
          | none => j.levels
          | some i => fs.levelsAt i j) ≤ fs.height)
        all_goals (try (intros; trivial))
        · intro _; exact Nat.zero_le _
        · intro k j ms _ ih hE
          obtain ⟨⟨i, hi, hk⟩, hE⟩ := hE
          refine Nat.max_le.mpr ⟨?_, ih hE⟩
          simp only [hi]
          exact Fields.levelsAt_le fs i j hk
      exact Nat.add_le_add_left (this ms h) 1
    | _ => simp [Ty.levels, Ty.height]
  | .num _, j, _ => by cases j <;> exact Nat.le_refl 1
  | .raw _, j, _ => by cases j <;> exact Nat.le_refl 1
  | .str, j, _ => by cases j <;> exact Nat.le_refl 1
  | .bytes, j, _ => by cases j <;> exact Nat.le_refl 1
theorem Fields.levelsAt_le : (fs : Fields) → ∀ (i : Nat) (j : J), fs.KnowsAt i j → fs.levelsAt i j ≤ fs.height
  | .nil, i, j, h => by simp [Fields.KnowsAt] at h
  | .cons f t rest, i, j, h => by
    simp only [Fields.KnowsAt, Fields.levelsAt, Fields.height] at h ⊢
    cases hf : f.transient with
    | true => simp only [hf, if_true] at h ⊢; exact Fields.levelsAt_le rest i j h
    | false =>
      simp only [hf] at h ⊢
      cases i with
      | zero => exact Nat.le_trans (Ty.levels_le t j h) (Nat.le_max_left _ _)
      | succ i => exact Nat.le_trans (Fields.levelsAt_le rest i j h) (Nat.le_max_right _ _)
end

/-- C71, the part that holds: a document with no members but those of the type never takes more levels than the type has,
whatever its length.  Missing: documents with other members (`C71_is_false`). -/
theorem C71_known_partial (t : Ty) {j : J} {bs : Bytes} (params : Option Params) (v : t.Den) (h : DocText j bs)
    (hk : t.Knows j) : deserializeDepth t bs params v ≤ t.height :=
  Nat.le_trans (C71_levels t params v h).1 (Ty.levels_le t j hk)

theorem each_elems {α : Type} {P : J → Prop} {f : α → J} : (l : List α) → (∀ x ∈ l, P (f x)) → (elemsToJ f l).Each P
  | [], _ => trivial
  | x :: l, h => ⟨h x (List.mem_cons_self ..), each_elems l fun y hy => h y (List.mem_cons_of_mem _ hy)⟩

mutual
/-- What is written for an object has only members of the type. -/
theorem Ty.knows_toJ (nulls : Bool) : (t : Ty) → (v : t.Den) → t.DispatchOk → t.Knows (t.toJ nulls v)
  | .num _, v, _ => by simp only [Ty.Knows]
  | .raw _, v, _ => by simp only [Ty.Knows]
  | .str, v, _ => by simp only [Ty.Knows]
  | .bytes, v, _ => by simp only [Ty.Knows]
  | .rep t, v, hd => by
    simp only [Ty.toJ, Ty.Knows]
    exact each_elems _ fun x _ => Ty.knows_toJ nulls t x hd
  | .msg obf fs, v, hd => by
    simp only [Ty.toJ, Ty.Knows]
    exact Fields.each_toJ nulls fs v hd.2 fun m lab hl j hj => ⟨m, hd.1 m lab hl, hj⟩
theorem Fields.each_toJ (nulls : Bool) : (fs : Fields) → (v : fs.Den) → fs.DispatchOk → {P : Bytes → J → Prop} →
    (∀ m lab, fs.labels[m]? = some lab → ∀ j, fs.KnowsAt m j → P lab j) → (fs.toJ nulls v).Each P
  | .nil, _, _, _, _ => trivial
  | .cons f t rest, v, hd, P, hP => by
    unfold Fields.toJ
    cases hf : f.transient with
    | true =>
      simp only [if_true]
      refine Fields.each_toJ nulls rest v.2 hd.2 fun m lab hl j hj => hP m lab ?_ j ?_
      · simpa [Fields.labels, hf] using hl
      · simpa [Fields.KnowsAt, hf] using hj
    | false =>
      have ih : (rest.toJ nulls v.2).Each P := Fields.each_toJ nulls rest v.2 hd.2 fun m lab hl j hj => hP (m + 1) lab
        (by simpa [Fields.labels, hf] using hl) j (by simpa [Fields.KnowsAt, hf] using hj)
      simp only [Bool.false_eq_true, if_false]
      split
      · refine ⟨hP 0 f.wlabel (by simp [Fields.labels, hf]) _ ?_, ih⟩
        simpa [Fields.KnowsAt, hf] using Ty.knows_toJ nulls t v.1 hd.1
      · exact ih
end

/-- C71.  In particular reading back what was written for an object — however long its lists and strings — takes no more
levels than the type has. -/
theorem C71_own_output (t : Ty) (params q : Option Params) (v v' : t.Den) (hl : t.LabelsOk) (hd : t.DispatchOk)
    (hw : t.Writable (fun b => b ≠ 0) (params.getD {}).ensureAscii v) :
    deserializeDepth t (serialize t params v).out q v' ≤ t.height :=
  C71_known_partial t q v' ⟨[], _, [], by simp, Ws.nil, (serialize_text lexOk_wide t params v hl hw).2, endOk_nil _⟩
    (Ty.knows_toJ _ t v hd)

/-- A field table has no entry for a name longer than all of its names. -/
theorem lookupKey_long (k : Bytes) : (l : List (Bytes × Nat)) → (∀ e ∈ l, e.1.length < k.length) → lookupKey k l = none
  | [], _ => rfl
  | (k', i) :: t, h => by
    unfold lookupKey
    rw [if_neg (by rintro rfl; exact absurd (h _ (List.mem_cons_self ..)) (Nat.lt_irrefl _))]
    exact lookupKey_long k t (fun e he => h e (List.mem_cons_of_mem _ he))

theorem exists_longer : (l : List (Bytes × Nat)) → ∃ n, ∀ e ∈ l, e.1.length < n
  | [] => ⟨0, by simp⟩
  | a :: t => by
    obtain ⟨n, hn⟩ := exists_longer t
    refine ⟨Nat.max n (a.1.length + 1), fun e he => ?_⟩
    rcases List.mem_cons.mp he with rfl | he
    · exact Nat.lt_of_lt_of_le (Nat.lt_succ_self _) (Nat.le_max_right _ _)
    · exact Nat.lt_of_lt_of_le (hn e he) (Nat.le_max_left _ _)

/-- Every message type lacks some name made of the letter `x`. -/
theorem exists_unknown (obf : Bool) (fs : Fields) : ∃ n, indexOf obf fs (List.replicate n c!"x") = none := by
  obtain ⟨n, hn⟩ := exists_longer (fs.table 0)
  refine ⟨n, ?_⟩
  unfold indexOf
  refine lookupKey_long _ _ (fun e he => ?_)
  have : (if obf then reveal (List.replicate n c!"x") else List.replicate n c!"x").length = n := by
    cases obf <;> simp [reveal]
  rw [this]
  exact hn e he

/-- `d + 1` arrays inside each other. -/
def nested : Nat → J
  | 0 => .arr .nil
  | d + 1 => .arr (.cons (nested d) .nil)

/-- Their text. -/
def nestedText (d : Nat) : Bytes := List.replicate (d + 1) c!"[" ++ List.replicate (d + 1) c!"]"

theorem nestedText_succ (d : Nat) : nestedText (d + 1) = c!"[" :: (nestedText d ++ [c!"]"]) := by
  unfold nestedText
  rw [List.replicate_succ (n := d + 1) (a := c!"["), List.replicate_succ' (n := d + 1) (a := c!"]")]
  simp only [List.cons_append, List.append_assoc]

theorem nested_text (L : Lexis) : (d : Nat) → JVal L (nested d) (nestedText d)
  | 0 => ⟨[], rfl, by simp [JElems, Ws]⟩
  | d + 1 => by
    rw [nestedText_succ]
    exact ⟨nestedText d, rfl, [], nestedText d, [], by simp, by simp [Ws], nested_text L d, by simp [Ws]⟩

theorem nested_levels : (d : Nat) → (nested d).levels = d + 1
  | 0 => rfl
  | d + 1 => by
    unfold nested J.levels
    simp only [JL.levels, nested_levels d]
    show 1 + Nat.max (d + 1) 0 = _
    rw [show Nat.max (d + 1) 0 = d + 1 from Nat.max_eq_left (Nat.zero_le _)]
    omega

/-- The document `{"xx…x":[[…[]…]]}`. -/
def deepText (n d : Nat) : Bytes :=
  c!"{" :: ((c!"\"" :: (List.replicate n c!"x" ++ c!"\"" :: c!":" :: nestedText d)) ++ [c!"}"])

theorem deepText_val (L : Lexis) (n d : Nat) (h : L.str (List.replicate n c!"x") (List.replicate n c!"x")) :
    JVal L (.obj (.cons (List.replicate n c!"x") (nested d) .nil)) (deepText n d) := by
  refine ⟨_, rfl, [], List.replicate n c!"x", [], [], nestedText d, [], ?_, by simp [Ws], h, by simp [Ws], by simp [Ws],
    nested_text L d, by simp [Ws]⟩
  simp

theorem StrChars.xs {raw : Byte → Prop} {uni : Nat → Prop} (h : raw c!"x") :
    (n : Nat) → StrChars raw uni (List.replicate n c!"x") (List.replicate n c!"x")
  | 0 => .nil
  | n + 1 => .raw h (StrChars.xs h n)

/-- C71 is false: for every message type and every depth there is a JSON document (RFC 8259) that takes more levels.  It is
accepted and leaves the object unchanged. -/
theorem C71_is_false (obf : Bool) (fs : Fields) (params : Option Params) (v : fs.Den) (d : Nat) :
    ∃ ms bs, JVal rfc (.obj ms) bs ∧ outcome (deserialize (.msg obf fs) bs params v) = some (true, v) ∧
      d < deserializeDepth (.msg obf fs) bs params v := by
  obtain ⟨n, hn⟩ := exists_unknown obf fs
  have hw : JVal wide _ (deepText n d) := deepText_val wide n d (StrChars.xs (by decide) n)
  have hd : DocText (.obj (.cons (List.replicate n c!"x") (nested d) .nil)) (deepText n d) :=
    ⟨[], deepText n d, [], by simp, by simp [Ws], hw, trivial⟩
  have ho : outcome (deserialize (.msg obf fs) (deepText n d) params v) = some (true, v) := by
    rw [doc_outcome (.msg obf fs) params v hd]
    simp only [Ty.absorb, absorbMembers, hn]
    rfl
  refine ⟨_, _, deepText_val rfc n d (StrChars.xs (by decide) n), ho, ?_⟩
  rw [(C71_levels (.msg obf fs) params v hd).2 v ho]
  simp only [Ty.levels, JM.most, hn, nested_levels]
  exact Nat.lt_of_lt_of_le (Nat.lt_succ_self d) (Nat.le_trans (Nat.le_max_left (d + 1) 0) (Nat.le_add_left _ 1))

theorem ignoreDepth_open : (d : Nat) → ∀ {k : Nat} {tz : Tz}, 2 * d ≤ k → At tz (List.replicate d c!"[") → d ≤ ignoreDepth k tz
  | 0, _, _, _, _ => Nat.zero_le _
  | d + 1, k, tz, hk, ha => by
    rw [List.replicate_succ] at ha
    obtain ⟨k, rfl⟩ : ∃ k', k = k' + 2 := ⟨k - 2, by omega⟩
    obtain ⟨h1, -, h3⟩ := ha.tok (LexTo.arrs _)
    unfold ignoreDepth
    rw [h1]
    simp only
    cases d with
    | zero => omega
    | succ d =>
      have hi := ignoreDepth_open (d + 1) (k := k) (by omega) h3
      rw [List.replicate_succ] at h3
      obtain ⟨h4, -, -⟩ := h3.tok (LexTo.arrs _)
      unfold ignoreArrDepth
      rw [if_neg (by rw [h4]; decide)]
      have := Nat.le_trans hi (Nat.le_max_left _ (match ignoreValue k tz.next with
        | (.ok, tz) =>
          match tz.expect .comma with
          | (true, tz) => ignoreArrDepth k tz
          | (false, _) => 0
        | _ => 0))
      exact Nat.le_trans (Nat.le_of_eq (Nat.add_comm _ _)) (Nat.add_le_add_left this 1)

/-- C71.  The text need not even be a document: every opening bracket in the value of a member that is skipped takes a level,
before anything is known about what follows. -/
theorem C71_unfinished (obf : Bool) (fs : Fields) (params : Option Params) (v : fs.Den) (name body : Bytes) (d : Nat)
    (hb : wide.str body name) (hn : indexOf obf fs name = none) :
    d < deserializeDepth (.msg obf fs) (c!"{" :: c!"\"" :: (body ++ c!"\"" :: c!":" :: List.replicate d c!"[")) params v := by
  unfold deserializeDepth
  have ha := At.open (c!"{" :: c!"\"" :: (body ++ c!"\"" :: c!":" :: List.replicate d c!"[")) (ctxParams params).err
  obtain ⟨h1, -, h2⟩ := ha.tok (LexTo.objs _)
  obtain ⟨h3, h3', h4⟩ := h2.tok (LexTo.string hb _)
  obtain ⟨h5, -, h6⟩ := h4.tok (LexTo.colon _)
  have hf : fuelFor (c!"{" :: c!"\"" :: (body ++ c!"\"" :: c!":" :: List.replicate d c!"[")) =
      (2 * body.length + 2 * d + 15) + 1 := by
    unfold fuelFor; simp only [List.length_cons, List.length_append, List.length_replicate]; omega
  rw [hf]
  have hd := ignoreDepth_open d (k := 2 * body.length + 2 * d + 15) (by omega) h6
  simp only [Ty.readDepth]
  unfold readObjDepth
  rw [if_neg (by rw [h1]; decide), expect_pos h1]
  simp only
  rw [expect_neg (by rw [h3]; decide)]
  simp only
  unfold readObjLoopDepth
  simp only [expect_pos h3, expect_pos h5, h3', hn]
  exact Nat.lt_of_lt_of_le (Nat.lt_succ_of_le hd)
    (Nat.le_trans (Nat.le_of_eq (Nat.add_comm _ 1)) (Nat.add_le_add_left (Nat.le_trans (Nat.le_max_left _ _) (Nat.le_max_right 0 _)) 1))

/-- A person's own text takes the four levels of the type: person, list, address, field. -/
example : Demo.person.height = 4 ∧
    deserializeDepth Demo.person (serialize Demo.person none Demo.alice).out none Demo.person.new = 4 := by
  constructor <;> decide +kernel

/-- A member nobody knows, with five arrays in each other: six levels; without the closing brackets just as many. -/
example : deserializeDepth Demo.person b!"{\"u\":[[[[[]]]]]}" none Demo.person.new = 6 ∧
    deserializeDepth Demo.person b!"{\"u\":[[[[[" none Demo.person.new = 7 := by
  constructor <;> decide +kernel

/-- The hypotheses of `C71_known_partial` and `C71_unfinished` can be met. -/
example : Demo.person.Knows (.obj (.cons b!"past" (.arr (.cons (.obj (.cons b!"street" (.str b!"a") .nil)) .nil)) .nil)) := by
  refine ⟨⟨5, by decide +kernel, ?_⟩, trivial⟩
  show Ty.Knows (.rep Demo.address) _
  refine ⟨?_, trivial⟩
  show Ty.Knows Demo.address _
  exact ⟨⟨1, by decide +kernel, trivial⟩, trivial⟩
example : wide.str b!"u" b!"u" ∧ indexOf false Demo.personFields b!"u" = none :=
  ⟨.raw (by decide) .nil, by decide +kernel⟩

end PG
