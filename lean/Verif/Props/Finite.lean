import Verif.Proofs.Finite
import Verif.Props.Shape
/-
C73: exactly which objects are written as JSON.
-/
set_option autoImplicit false
namespace PG
open IStream

/-! ### Control characters -/

/-- A lexical grammar that takes everything a writer emits for a string. -/
def anyString : Lexis where
  str := StrChars (fun b => b ≠ c!"\"" ∧ b ≠ c!"\\") (fun cp => 0x80 ≤ cp)
  num := RfcNum

theorem lexOk_any : LexOk anyString (fun _ => True) where
  ex := ⟨_, _, rfl, fun _ _ h => ⟨(hasShort_false h).1, (hasShort_false h).2.1⟩, fun _ h => h.2, fun _ h => h⟩
  num _ h := h

theorem utf8_high {cp : Nat} (h1 : 0x80 ≤ cp) (h2 : cp < 0x110000) : ∀ b ∈ utf8 cp, (0x80 : Byte) ≤ b := by
  have key : ∀ n : Nat, 0x80 ≤ n → n < 0x100 → (0x80 : Byte) ≤ UInt8.ofNat n := by
    intro n h1 h2
    rw [UInt8.le_iff_toNat_le, UInt8.toNat_ofNat_of_lt' (by simpa using h2)]
    exact h1
  intro b hb
  unfold utf8 at hb
  rw [if_neg (by omega)] at hb
  split at hb
  · simp only [List.mem_cons, List.not_mem_nil, or_false] at hb
    rcases hb with rfl | rfl <;> exact key _ (by omega) (by omega)
  · split at hb
    · simp only [List.mem_cons, List.not_mem_nil, or_false] at hb
      rcases hb with rfl | rfl | rfl <;> exact key _ (by omega) (by omega)
    · simp only [List.mem_cons, List.not_mem_nil, or_false] at hb
      rcases hb with rfl | rfl | rfl | rfl <;> exact key _ (by omega) (by omega)

theorem not_rfcOk {b : Byte} (h : ¬ rfcOk b) : b < 32 ∧ b ∉ [8, 9, 10, 12, 13] := by
  unfold rfcOk at h
  exact ⟨by simpa using fun h' => h (.inl h'), fun h' => h (.inr h')⟩

/-- A control character without a short escape stands for itself. -/
theorem any_raw {body s : Bytes} (h : anyString.str body s) {b : Byte} (hb : b ∈ s) (hc : ¬ rfcOk b) : b ∈ body := by
  change StrChars _ _ body s at h
  obtain ⟨c1, c2⟩ := not_rfcOk hc
  have low : ∀ {cp : Nat}, 0x80 ≤ cp → cp < 0x110000 → b ∉ utf8 cp := by
    intro cp h1 h2 hm
    have := utf8_high h1 h2 b hm
    rw [UInt8.le_iff_toNat_le] at this
    rw [UInt8.lt_iff_toNat_lt] at c1
    simp at this c1
    omega
  induction h with
  | nil => cases hb
  | raw _ _ ih =>
    rcases List.mem_cons.mp hb with rfl | hb
    · exact List.mem_cons_self ..
    · exact List.mem_cons_of_mem _ (ih hb)
  | esc he _ ih =>
    rcases List.mem_cons.mp hb with rfl | hb
    · exfalso
      simp only [shortEscapes, List.mem_cons, Prod.mk.injEq, List.not_mem_nil, or_false] at he
      rcases he with ⟨-, rfl⟩ | ⟨-, rfl⟩ | ⟨-, rfl⟩ | ⟨-, rfl⟩ | ⟨-, rfl⟩ | ⟨-, rfl⟩ | ⟨-, rfl⟩ | ⟨-, rfl⟩ <;> revert c1 c2 <;> decide
    · exact List.mem_cons_of_mem _ (List.mem_cons_of_mem _ (ih hb))
  | uni hh _ hu _ ih =>
    rcases List.mem_append.mp hb with hb | hb
    · exact absurd hb (low hu (Nat.lt_trans hh.lt (by decide)))
    · exact List.mem_cons_of_mem _ (List.mem_cons_of_mem _ (List.mem_append_right _ (ih hb)))
  | pair _ _ _ _ _ _ _ ih =>
    rcases List.mem_append.mp hb with hb | hb
    · exact absurd hb (low (by omega) (by omega))
    · exact List.mem_cons_of_mem _ (List.mem_cons_of_mem _ (List.mem_append_right _ (List.mem_cons_of_mem _
        (List.mem_cons_of_mem _ (List.mem_append_right _ (ih hb))))))

/-- A text with a byte that no JSON text has. -/
def Raw (b : Bytes) : Prop := ∃ x ∈ b, ¬ rfcOk x

theorem Raw.left {a : Bytes} (b : Bytes) : Raw a → Raw (a ++ b) | ⟨x, h1, h2⟩ => ⟨x, List.mem_append_left _ h1, h2⟩
theorem Raw.right (a : Bytes) {b : Bytes} : Raw b → Raw (a ++ b) | ⟨x, h1, h2⟩ => ⟨x, List.mem_append_right _ h1, h2⟩
theorem Raw.cons (a : Byte) {b : Bytes} : Raw b → Raw (a :: b) | ⟨x, h1, h2⟩ => ⟨x, List.mem_cons_of_mem _ h1, h2⟩

theorem writeElems_raw {α : Type} {wr : α → ErrInfo → WRes} {G : α → Prop} : (xs : List α) → (e : ErrInfo) →
    (∀ x ∈ xs, ∀ e, ¬ G x → Raw (wr x e).2.1) → (¬ ∀ x ∈ xs, G x) → Raw (writeElems wr xs e).1
  | [], _, _, hn => absurd (by simp) hn
  | [x], e, hb, hn => hb x (by simp) e (fun h => hn (by simpa using h))
  | x :: y :: t, e, hb, hn => by
    unfold writeElems
    by_cases hx : G x
    · exact Raw.right _ (Raw.cons _ (writeElems_raw (y :: t) _ (fun z hz => hb z (List.mem_cons_of_mem _ hz)) (fun h => hn
        fun z hz => by
          rcases List.mem_cons.mp hz with rfl | hz
          · exact hx
          · exact h z hz)))
    · exact Raw.left _ (hb x (by simp) e hx)

mutual
theorem Ty.write_raw (p : Params) : (t : Ty) → (v : t.Den) → (e : ErrInfo) →
    t.Strings (fun s => p.ensureAscii = true → Utf8 s) v → ¬ t.Strings (fun s => ∀ b ∈ s, rfcOk b) v → Raw (t.write p v e).2.1
  | .num _, v, e, _, hn => absurd trivial hn
  | .raw _, v, e, _, hn => absurd trivial hn
  | .bytes, v, e, _, hn => absurd trivial hn
  | .str, v, e, hu, hn => by
    simp only [Ty.Strings, Classical.not_imp] at hn hu
    obtain ⟨h1, h2⟩ := hn
    simp only [Classical.not_forall] at h2
    obtain ⟨b, hb, hc⟩ := h2
    have := strBody_lex lexOk_any (ascii := p.ensureAscii) (s := v.value) ⟨fun _ _ => trivial, hu h1⟩
    have hm := any_raw this.2 hb hc
    simp only [Ty.write, h1, Bool.false_eq_true, if_false, stringWrite, this.1]
    exact ⟨b, by simp [hm], hc⟩
  | .rep t, v, e, hu, hn => by
    unfold Ty.write
    exact Raw.left _ (Raw.cons _ (writeElems_raw (G := t.Strings _) v e (fun x hx e h => Ty.write_raw p t x e (hu x hx) h) hn))
  | .msg _ fs, v, e, hu, hn => by
    unfold Ty.write
    exact Raw.left _ (Raw.cons _ (Fields.write_raw p fs v true e hu hn))
theorem Fields.write_raw (p : Params) : (fs : Fields) → (v : fs.Den) → (first : Bool) → (e : ErrInfo) →
    fs.Strings (fun s => p.ensureAscii = true → Utf8 s) v → ¬ fs.Strings (fun s => ∀ b ∈ s, rfcOk b) v →
    Raw (fs.write p v first e).1
  | .nil, _, _, _, _, hn => absurd trivial hn
  | .cons f t rest, v, first, e, hu, hn => by
    unfold Fields.Strings at hu hn
    unfold Fields.write
    cases hf : f.transient with
    | true =>
      simp only [if_true]
      exact Fields.write_raw p rest v.2 first e hu.2 (fun h => hn ⟨fun h' => absurd h' (by rw [hf]; decide), h⟩)
    | false =>
      simp only [Bool.false_eq_true, if_false]
      split
      · by_cases hv : t.Strings (fun s => ∀ b ∈ s, rfcOk b) v.1
        · exact Raw.right _ (Fields.write_raw p rest v.2 false _ hu.2 (fun h => hn ⟨fun _ => hv, h⟩))
        · exact Raw.left _ (Raw.right _ (Ty.write_raw p t v.1 e (hu.1 hf) hv))
      · rename_i hw
        have he : t.empty v.1 = true := by
          cases h : t.empty v.1 with
          | true => rfl
          | false => rw [h] at hw; simp at hw
        exact Fields.write_raw p rest v.2 first e hu.2 (fun h => hn ⟨fun _ => Ty.strings_of_empty t v.1 he, h⟩)
end

/-! ### The bytes of JSON texts -/

theorem ws_rfcOk {w : Bytes} (h : Ws w) : ¬ Raw w := by
  rintro ⟨x, h1, h2⟩
  have h := h x h1
  revert h
  have : ∀ x : Byte, wsByte x = true → rfcOk x := by
    intro x hx
    simp only [wsByte, Bool.or_eq_true, beq_iff_eq] at hx
    unfold rfcOk
    rcases hx with ((rfl | rfl) | rfl) | rfl <;> decide
  exact fun h => h2 (this x h)

theorem Raw.split {a b : Bytes} : Raw (a ++ b) → Raw a ∨ Raw b
  | ⟨x, h1, h2⟩ => (List.mem_append.mp h1).imp (fun h => ⟨x, h, h2⟩) (fun h => ⟨x, h, h2⟩)
theorem Raw.uncons {a : Byte} {b : Bytes} (ha : (32 : Byte) ≤ a) : Raw (a :: b) → Raw b
  | ⟨x, h1, h2⟩ => by
    rcases List.mem_cons.mp h1 with rfl | h1
    · exact absurd (.inl ha) h2
    · exact ⟨x, h1, h2⟩
theorem Raw.nil : ¬ Raw [] := by rintro ⟨x, h, -⟩; cases h

theorem hex_rfcOk {h : Bytes} {cp : Nat} (hh : Hex4 h cp) : ¬ Raw h := by
  obtain ⟨a, b, c, d, va, vb, vc, vd, rfl, ha, hb, hc, hd, -⟩ := hh
  have key : ∀ {x : Byte} {v : Nat}, HexDigit x v → 32 ≤ x := by
    intro x v hx
    unfold HexDigit at hx
    rw [UInt8.le_iff_toNat_le]
    simp only [UInt8.le_iff_toNat_le] at hx
    simp at hx ⊢
    omega
  intro hr
  exact Raw.nil (((Raw.uncons (key ha) hr).uncons (key hb)).uncons (key hc) |>.uncons (key hd))

theorem str_rfcOk {body s : Bytes} (h : rfc.str body s) : ¬ Raw body := by
  change StrChars _ _ body s at h
  induction h with
  | nil => exact Raw.nil
  | raw hb _ ih => exact fun hr => ih (hr.uncons hb.1)
  | esc he _ ih =>
    intro hr
    have hr := hr.uncons (by decide)
    refine ih (hr.uncons ?_)
    simp only [shortEscapes, List.mem_cons, Prod.mk.injEq, List.not_mem_nil, or_false] at he
    rcases he with ⟨rfl, -⟩ | ⟨rfl, -⟩ | ⟨rfl, -⟩ | ⟨rfl, -⟩ | ⟨rfl, -⟩ | ⟨rfl, -⟩ | ⟨rfl, -⟩ | ⟨rfl, -⟩ <;> decide
  | uni hh _ _ _ ih =>
    intro hr
    exact (((hr.uncons (by decide)).uncons (by decide)).split).elim (hex_rfcOk hh) ih
  | pair h1 h2 _ _ _ _ _ ih =>
    intro hr
    rcases ((hr.uncons (by decide)).uncons (by decide)).split with hr | hr
    · exact hex_rfcOk h1 hr
    · exact (((hr.uncons (by decide)).uncons (by decide)).split).elim (hex_rfcOk h2) ih

theorem num_rfcOk {l : Bytes} (h : RfcNum l) : ¬ Raw l := by
  rintro ⟨x, h1, h2⟩
  have := h.sloppy.2 x h1
  refine h2 (.inl ?_)
  simp only [numByte, Bool.or_eq_true, Bool.and_eq_true, decide_eq_true_eq, beq_iff_eq] at this
  rcases this with ((((h | rfl) | rfl) | rfl) | rfl) | rfl
  · exact UInt8.le_trans (by decide) h.1
  all_goals decide

mutual
theorem val_rfcOk : (j : J) → ∀ {b : Bytes}, JVal rfc j b → ¬ Raw b
  | .null, _, h => by cases h; simp [Raw, rfcOk]
  | .bool true, _, h => by cases h; simp [Raw, rfcOk]
  | .bool false, _, h => by cases h; simp [Raw, rfcOk]
  | .num l, _, h => by
    obtain ⟨rfl, h⟩ := h
    exact num_rfcOk h
  | .str s, _, h => by
    obtain ⟨body, rfl, h⟩ := h
    intro hr
    exact (Raw.split (hr.uncons (by decide))).elim (str_rfcOk h) (by simp [Raw, rfcOk])
  | .arr xs, _, h => by
    obtain ⟨inner, rfl, h⟩ := h
    intro hr
    exact (Raw.split (hr.uncons (by decide))).elim (elems_rfcOk xs h) (by simp [Raw, rfcOk])
  | .obj ms, _, h => by
    obtain ⟨inner, rfl, h⟩ := h
    intro hr
    exact (Raw.split (hr.uncons (by decide))).elim (members_rfcOk ms h) (by simp [Raw, rfcOk])
theorem elems_rfcOk : (xs : JL) → ∀ {b : Bytes}, JElems rfc xs b → ¬ Raw b
  | .nil, _, h => ws_rfcOk h
  | .cons j .nil, _, h => by
    obtain ⟨w, b, w', rfl, h1, h2, h3⟩ := h
    exact fun hr => hr.split.elim (ws_rfcOk h1) fun hr => hr.split.elim (val_rfcOk j h2) (ws_rfcOk h3)
  | .cons j (.cons j' t), _, h => by
    obtain ⟨w, b, w', r, rfl, h1, h2, h3, h4⟩ := h
    exact fun hr => hr.split.elim (ws_rfcOk h1) fun hr => hr.split.elim (val_rfcOk j h2) fun hr =>
      hr.split.elim (ws_rfcOk h3) fun hr => elems_rfcOk (.cons j' t) h4 (hr.uncons (by decide))
theorem members_rfcOk : (ms : JM) → ∀ {b : Bytes}, JMembers rfc ms b → ¬ Raw b
  | .nil, _, h => ws_rfcOk h
  | .cons k j .nil, _, h => by
    obtain ⟨w, kb, w1, w2, b, w', rfl, h1, h2, h3, h4, h5, h6⟩ := h
    exact fun hr => hr.split.elim (ws_rfcOk h1) fun hr => (hr.uncons (by decide)).split.elim (str_rfcOk h2) fun hr =>
      (hr.uncons (by decide)).split.elim (ws_rfcOk h3) fun hr => (hr.uncons (by decide)).split.elim (ws_rfcOk h4) fun hr =>
        hr.split.elim (val_rfcOk j h5) (ws_rfcOk h6)
  | .cons k j (.cons k' j' t), _, h => by
    obtain ⟨w, kb, w1, w2, b, w', r, rfl, h1, h2, h3, h4, h5, h6, h7⟩ := h
    exact fun hr => hr.split.elim (ws_rfcOk h1) fun hr => (hr.uncons (by decide)).split.elim (str_rfcOk h2) fun hr =>
      (hr.uncons (by decide)).split.elim (ws_rfcOk h3) fun hr => (hr.uncons (by decide)).split.elim (ws_rfcOk h4) fun hr =>
        hr.split.elim (val_rfcOk j h5) fun hr => hr.split.elim (ws_rfcOk h6) fun hr =>
          members_rfcOk (.cons k' j' t) h7 (hr.uncons (by decide))
end

/-! ### C73 -/

/-- C73.  Exactly the objects that are written as JSON: with legal names, and strings that are UTF-8 when `ensure_ascii`
asks for it, the output is a JSON text of RFC 8259 iff no string that is written has a control character other than
those with a short escape, and every number that is written is finite. -/
theorem C73_json_iff (t : Ty) (params : Option Params) (v : t.Den) (hl : t.LabelsOk)
    (hu : t.Strings (fun s => (params.getD {}).ensureAscii = true → Utf8 s) v) :
    (∃ j, JVal rfc j (serialize t params v).out) ↔ t.Strings (fun s => ∀ b ∈ s, 32 ≤ b ∨ b ∈ [8, 9, 10, 12, 13]) v ∧ t.AllFinite v := by
  have both : ∀ {P : Byte → Prop}, t.Strings (fun s => ∀ b ∈ s, P b) v → t.Strings (StrOk P (params.getD {}).ensureAscii) v :=
    fun {P} h => Ty.strings_and (P := fun s => ∀ b ∈ s, P b) t v h hu
  constructor
  · rintro ⟨j, hj⟩
    have hs : t.Strings (fun s => ∀ b ∈ s, rfcOk b) v := Classical.byContradiction fun hn => by
      rw [← ctxParams_ascii] at hu
      exact val_rfcOk j hj (Ty.write_raw (ctxParams params) t v (ctxParams params).err hu hn)
    refine ⟨hs, Classical.byContradiction fun hn => ?_⟩
    have h0 : t.Strings (StrOk (fun b => b ≠ 0) (ctxParams params).ensureAscii) v := by
      rw [ctxParams_ascii]
      exact both (Ty.strings_mono (fun s h b hb => by rintro rfl; exact absurd (h 0 hb) (by simp [rfcOk])) t v hs)
    obtain ⟨b, h1, h2⟩ := Ty.write_bad (ctxParams params) t v (ctxParams params).err hl h0 hn
    have e : (serialize t params v).out = b := by unfold serialize; simp [h1]
    rw [e] at hj
    exact h2.spoilt.not (clear_val quoted_rfc j hj)
  · rintro ⟨hs, hf⟩
    exact ⟨_, (serialize_text lexOk_rfc t params v hl ((Ty.writable_iff _ _ t v).mpr ⟨both hs, hf⟩)).2⟩

/-- No message class reads an object whose members cannot be skipped. -/
theorem breaks_refused_in {b : Bytes} (h2 : BreaksM b) {ws : Bytes} (hws : Ws ws) (tail : Bytes) (obf' : Bool) (fs' : Fields)
    (q : Option Params) (w : fs'.Den) :
    ∃ r, deserialize (.msg obf' fs') (ws ++ c!"{" :: (b ++ c!"}" :: tail)) q w = some r ∧ r.ret = false := by
  obtain ⟨r, hr⟩ := C20_terminates (.msg obf' fs') (ws ++ c!"{" :: (b ++ c!"}" :: tail)) q w
  refine ⟨r, hr, ?_⟩
  cases hret : r.ret with
  | false => rfl
  | true =>
    exfalso
    obtain ⟨ls, text, rest, h3, h4, h5⟩ := C54_accepted_is_object obf' fs' _ q w r hr hret
    obtain ⟨w', -, hu⟩ := Spaced.upto ls rest h4
    rw [← h3] at hu
    have hst : Stand (Tz.open' (IStream.open' (clean (ws ++ c!"{" :: (b ++ c!"}" :: tail)))) (ctxParams q).err) ls (w' ++ rest) :=
      ⟨_, hu, At.open _ _⟩
    have hsame := sameTz_bi.next (same_open (clean_clean (ws ++ c!"{" :: (b ++ c!"}" :: tail))) (ctxParams q).err)
    obtain ⟨a1, -, a2⟩ := (At.open (ws ++ c!"{" :: (b ++ c!"}" :: tail)) (ctxParams q).err).dropWs hws |>.tok (LexTo.objs _)
    rcases h5 with rfl | ⟨inner, ms, rfl, h5⟩
    · obtain ⟨s1, s2⟩ := Stand.mark (id := .objs) hst (by decide)
      obtain ⟨s3, -⟩ := Stand.mark (id := .obje) s2 (by decide)
      have := sameTz_bi.ignoreObjLoop (2 * b.length + 1) hsame
      refine h2 tail (2 * b.length + 1) _ (by omega) a2 ?_
      rw [← this.1]
      unfold ignoreObjLoop
      rw [if_pos s3]
      simp [ignoreObjEnd, expect_pos s3]
    · obtain ⟨s1, s2⟩ := Stand.mark (id := .objs) hst (by decide)
      obtain ⟨x, s3, -⟩ := skipsMembers h5 (us := []) (n := 2 * b.length + 1 + (2 * inner.length + 1)) (by omega) s2
      have := sameTz_bi.ignoreObjLoop (2 * b.length + 1 + (2 * inner.length + 1)) hsame
      refine h2 tail (2 * b.length + 1 + (2 * inner.length + 1)) _ (by omega) a2 ?_
      rw [← this.1, s3]

theorem breaks_refused {b : Bytes} (h2 : BreaksM b) (obf' : Bool) (fs' : Fields) (q : Option Params) (w : fs'.Den) :
    ∃ r, deserialize (.msg obf' fs') (c!"{" :: (b ++ [c!"}"])) q w = some r ∧ r.ret = false :=
  breaks_refused_in h2 (ws := []) Ws.nil [] obf' fs' q w

/-- C73.  An object with a number that is not finite is written all the same, but no message class reads back what was
written, with whatever fields and parameters. -/
theorem C73_refused (obf : Bool) (fs : Fields) (params : Option Params) (v : fs.Den) (hl : fs.LabelsOk)
    (hs : fs.Strings (StrOk (fun b => b ≠ 0) (params.getD {}).ensureAscii) v) (hn : ¬ fs.AllFinite v) :
    (serialize (.msg obf fs) params v).ret = true ∧
    ∀ (obf' : Bool) (fs' : Fields) (q : Option Params) (w : fs'.Den),
      ∃ r, deserialize (.msg obf' fs') (serialize (.msg obf fs) params v).out q w = some r ∧ r.ret = false := by
  rw [← ctxParams_ascii] at hs
  obtain ⟨b, h1, h2, -⟩ := Fields.write_bad (ctxParams params) fs v true (ctxParams params).err hl hs hn
  simp only [if_true] at h2
  have e : (serialize (.msg obf fs) params v).out = c!"{" :: (b ++ [c!"}"]) ∧ (serialize (.msg obf fs) params v).ret = true := by
    unfold serialize; simp [Ty.write, h1]
  refine ⟨e.2, fun obf' fs' q w => ?_⟩
  rw [e.1]
  exact breaks_refused h2 obf' fs' q w

/-- C73.  What is written for a number that is not finite. -/
theorem C73_text (k : FKind) (neg : Bool) (h : Flt.Rep k .nan) (h' : Flt.Rep k (.inf neg)) :
    (Prim.flt k).text ⟨.nan, h⟩ = b!"nan" ∧ (Prim.flt k).text ⟨.inf neg, h'⟩ = (if neg then b!"-inf" else b!"inf") :=
  ⟨rfl, by cases neg <;> rfl⟩

/-- Addresses with a height, which may be anything. -/
def Demo.tower (s : Bytes) (x : CFlt .f64) : (Ty.msg false (.cons (Demo.fld b!"height") (.num (.flt .f64)) (.cons (Demo.fld b!"street") .str
    (.cons (Demo.fld b!"times") (.rep (.raw (.flt .f64))) .nil)))).Den :=
  (⟨fltOfText .f64 b!"1.5", false⟩, ⟨s, false⟩, [fltOfText .f64 b!"2", x], ())

/-- Everything can happen: a JSON text, a text with an infinity or with what is not a number, and a raw control character.
Writing succeeds each time, reading the second and third fails.  (The raw control character is read, see C09.) -/
theorem C73_example :
    (∃ j, JVal rfc j (serialize Demo.person none Demo.alice).out) ∧
    (let t := Ty.msg false (.cons (Demo.fld b!"height") (.num (.flt .f64)) (.cons (Demo.fld b!"street") .str
        (.cons (Demo.fld b!"times") (.rep (.raw (.flt .f64))) .nil)))
     let try' (v : t.Den) := let r := serialize t none v; (r.ret, r.out, (deserialize t r.out none t.new).map (·.ret))
     try' (Demo.tower b!"inf" (fltOfText .f64 b!"3")) =
       (true, b!"{\"height\":1.500000,\"street\":\"inf\",\"times\":[2.000000,3.000000]}", some true) ∧
     try' (Demo.tower b!"x" ⟨.inf true, trivial⟩) =
       (true, b!"{\"height\":1.500000,\"street\":\"x\",\"times\":[2.000000,-inf]}", some false) ∧
     try' (Demo.tower b!"x" ⟨.nan, trivial⟩) =
       (true, b!"{\"height\":1.500000,\"street\":\"x\",\"times\":[2.000000,nan]}", some false) ∧
     try' (Demo.tower [1] (fltOfText .f64 b!"3")) =
       (true, b!"{\"height\":1.500000,\"street\":\"" ++ 1 :: b!"\",\"times\":[2.000000,3.000000]}", some true)) :=
  ⟨(C73_json_iff _ _ _ Demo.person_labels (Ty.strings_mono (fun _ h => h.2) _ _
      ((Ty.writable_iff _ _ _ _).mp (Demo.alice_writable_rfc (({} : Params).ensureAscii))).1)).mpr
      ⟨Ty.strings_mono (fun _ h => h.1) _ _ ((Ty.writable_iff _ _ _ _).mp (Demo.alice_writable_rfc false)).1,
        ((Ty.writable_iff _ _ _ _).mp (Demo.alice_writable_rfc false)).2⟩, by decide +kernel⟩

/-- The hypotheses of `C73_refused` are met by the second of these objects. -/
theorem C73_refused_example (obf : Bool) (fs : Fields) (q : Option Params) (w : fs.Den) :
    ∃ r, deserialize (.msg obf fs) b!"{\"height\":1.500000,\"street\":\"x\",\"times\":[2.000000,-inf]}" q w = some r ∧ r.ret = false := by
  have h := (C73_refused false _ none (Demo.tower b!"x" ⟨.inf true, trivial⟩)
    (show Ty.LabelsOk (.msg false _) from by decide +kernel)
    ⟨fun _ => trivial, fun _ _ => ⟨by decide, fun h => by cases h⟩, fun _ _ _ => trivial, trivial⟩
    (fun h => by
      obtain ⟨n, m, h⟩ := h.2.2.1 rfl ⟨.inf true, trivial⟩ (List.mem_cons_of_mem _ (List.mem_cons_self ..))
      cases h)).2 obf fs q w
  rwa [show (serialize (.msg false _) none (Demo.tower b!"x" ⟨.inf true, trivial⟩)).out =
    b!"{\"height\":1.500000,\"street\":\"x\",\"times\":[2.000000,-inf]}" from by decide +kernel] at h

end PG
