import Verif.Proofs.Sound
import Verif.Spec.Fault
/-
What a failing reader says about the lexemes it consumed, the token it stopped at, the code and the object.
-/
set_option autoImplicit false
namespace PG
open IStream

theorem error_cur (tz : Tz) (c : ECode) : (tz.error c).2.cur = tz.cur := by
  unfold Tz.error; split <;> rfl

/-- The error record has the code, unless an earlier error was left in it. -/
def Coded (B : Hist) (tz : Tz) (c : ECode) : Prop := tz.err.code = c ∨ B.B tz

theorem error_coded {B : Hist} {tz : Tz} (h : NoErr B tz) (c : ECode) : Coded B (tz.error c).2 c := by
  unfold Tz.error
  split
  · rename_i h'
    rcases h with h | h
    · exact absurd h.1 h'
    · exact .inr h
  · exact .inl rfl

theorem eats_stop {tz : Tz} {c : ECode} : Eats tz (tz.error c).2 (· = []) := eats_error (eats_id tz)

theorem expect_false' {tz tz' : Tz} {t : TId} (h : tz.expect t = (false, tz')) : tz' = tz ∧ tz.cur.id ≠ t := by
  refine ⟨expect_false h, fun hid => ?_⟩
  rw [expect_pos hid] at h
  simp at h

/-- Skipping stopped, with the lexemes described by `P`. -/
def StopsAt (B : Hist) (P : TId → ECode → List Bytes → Prop) (tz : Tz) (r : RC × Tz) : Prop :=
  NoErr B tz → r.1 = .error → Eats tz r.2 (fun ls => ∃ c, Coded B r.2 c ∧ P r.2.cur.id c ls)

theorem stopsAt_error {B : Hist} {P : TId → ECode → List Bytes → Prop} {tz : Tz} {c : ECode} (h : P tz.cur.id c []) :
    StopsAt B P tz (tz.error c) := fun hn _ =>
  eats_stop.mono (fun ls hl => ⟨c, error_coded hn _, by rw [hl, error_cur]; exact h⟩)

theorem stopsAt_ok {B : Hist} {P : TId → ECode → List Bytes → Prop} {tz x : Tz} : StopsAt B P tz (.ok, x) := fun _ h => by cases h

theorem StopsAt.after {B : Hist} {P Q : TId → ECode → List Bytes → Prop} {R : List Bytes → Prop} {tz x : Tz} {r : RC × Tz}
    (h : StopsAt B P x r) (he : Eats tz x R) (hn : NoErr B tz → NoErr B x) (hpq : ∀ o c a b, R a → P o c b → Q o c (a ++ b)) :
    StopsAt B Q tz r := fun h1 h2 =>
  he.append (h (hn h1) h2) (fun a b ha hb => by
    obtain ⟨c, h3, h4⟩ := hb
    exact ⟨c, h3, hpq _ c a b ha h4⟩)

theorem StopsAt.mono {B : Hist} {P Q : TId → ECode → List Bytes → Prop} {tz : Tz} {r : RC × Tz}
    (h : StopsAt B P tz r) (hpq : ∀ o c b, P o c b → Q o c b) : StopsAt B Q tz r := fun h1 h2 =>
  (h h1 h2).mono (fun ls hl => by
    obtain ⟨c, h3, h4⟩ := hl
    exact ⟨c, h3, hpq _ c ls h4⟩)

/-- With nothing consumed the current token is still the same. -/
theorem StopsAt.stay {B : Hist} {P : TId → ECode → List Bytes → Prop} {tz : Tz} {r : RC × Tz} (h : StopsAt B P tz r) :
    StopsAt B (fun o c ls => P o c ls ∧ (ls = [] → o = tz.cur.id)) tz r := fun h1 h2 s hs => by
  obtain ⟨s', ls, h5, h6, c, h7, h8⟩ := h h1 h2 s hs
  refine ⟨s', ls, h5, h6, c, h7, h8, fun hl => ?_⟩
  subst hl
  have hs' : s' = s := h6
  subst hs'
  have : r.2.cur = tz.cur := by have := h5.2.symm.trans hs.2; exact congrArg Prod.fst this
  rw [this]

theorem ignoreArrEnd_stops {B : Hist} (tz : Tz) : StopsAt B (fun o c ls => ls = [] ∧ c = .ignoreArray ∧ o ≠ .arre) tz (ignoreArrEnd tz) := by
  unfold ignoreArrEnd
  split
  · exact stopsAt_ok
  · rename_i x hx
    obtain ⟨rfl, hne⟩ := expect_false' hx
    exact stopsAt_error ⟨rfl, rfl, hne⟩

theorem ignoreObjEnd_stops {B : Hist} (tz : Tz) : StopsAt B (fun o c ls => ls = [] ∧ c = .ignoreObject ∧ o ≠ .obje) tz (ignoreObjEnd tz) := by
  unfold ignoreObjEnd
  split
  · exact stopsAt_ok
  · rename_i x hx
    obtain ⟨rfl, hne⟩ := expect_false' hx
    exact stopsAt_error ⟨rfl, rfl, hne⟩

theorem arrEnd_stop {tz : Tz} (h : tz.cur.id = .arre) : (ignoreArrEnd tz).1 = .ok := by
  unfold ignoreArrEnd; rw [expect_pos h]

theorem objEnd_stop {tz : Tz} (h : tz.cur.id = .obje) : (ignoreObjEnd tz).1 = .ok := by
  unfold ignoreObjEnd; rw [expect_pos h]

theorem ignoreValue_noErr {B : Hist} {n : Nat} {tz x : Tz} (h : ignoreValue n tz = (.ok, x)) (hn : NoErr B tz) : NoErr B x := by
  have := (ignoreValue_eok (B := B) n hn).2.1
  rw [h] at this
  exact this (by simp)

theorem ignoreValue_eats_more {n : Nat} {tz tz' : Tz} (h : ignoreValue n tz = (.ok, tz')) :
    Eats tz tz' (fun ls => ∃ j, Lv false j ls ∧ (tz.cur.id = .nil → j = .null) ∧
      (j.isScalar = true → tz'.cur.id ≠ .none ∧ tz'.cur.id ≠ .eos)) := by
  have hall := ignoreValue_eats n tz tz' h
  by_cases hc : tz'.cur.id ≠ .none ∧ tz'.cur.id ≠ .eos
  · exact hall.mono (fun ls hl => by obtain ⟨j, h1, h2⟩ := hl; exact ⟨j, h1, h2, fun _ => hc⟩)
  · cases n with
    | zero => simp [ignoreValue] at h
    | succ n =>
      unfold ignoreValue at h
      have scalar : (if (decide (tz.next.cur.id = .none) || decide (tz.next.cur.id = .eos)) = true then tz.next.error .ignoreEnd
          else (.ok, tz.next)) = (.ok, tz') → tz'.cur.id ≠ .none ∧ tz'.cur.id ≠ .eos := by
        intro h2
        split at h2
        · exact absurd h2 error_ne_ok
        · rename_i ho
          simp only [Prod.mk.injEq, true_and] at h2; subst h2
          simpa using ho
      generalize hid : tz.cur.id = id at h
      cases id with
      | none => exact absurd h error_ne_ok
      | eos => exact absurd h error_ne_ok
      | obje => exact absurd h error_ne_ok
      | colon => exact absurd h error_ne_ok
      | comma => exact absurd h error_ne_ok
      | arre => exact absurd h error_ne_ok
      | string => exact absurd (scalar h) hc
      | number => exact absurd (scalar h) hc
      | nil => exact absurd (scalar h) hc
      | btrue => exact absurd (scalar h) hc
      | bfalse => exact absurd (scalar h) hc
      | objs =>
        refine (eats_fixed hid rfl).append (ignoreObjLoop_eats n tz.next tz' h) ?_
        rintro x y rfl (rfl | ⟨inner, rfl, ms, hi⟩)
        · exact ⟨_, .obj0, by simp, by simp [J.isScalar]⟩
        · exact ⟨_, .obj hi, by simp, by simp [J.isScalar]⟩
      | arrs =>
        refine (eats_fixed hid rfl).append (ignoreArrLoop_eats n tz.next tz' h) ?_
        rintro x y rfl (rfl | ⟨inner, rfl, xs, hi⟩)
        · exact ⟨_, .arr0, by simp, by simp [J.isScalar]⟩
        · exact ⟨_, .arr hi, by simp, by simp [J.isScalar]⟩

mutual
theorem ignoreValue_stops {B : Hist} : (n : Nat) → (tz : Tz) → StopsAt B SkipCut tz (ignoreValue n tz)
  | 0, tz => fun _ h => by simp [ignoreValue] at h
  | n + 1, tz => by
    have scalar : ∀ j, tokVal tz.cur = some j → StopsAt B SkipCut tz
        (if (decide (tz.next.cur.id = .none) || decide (tz.next.cur.id = .eos)) = true then tz.next.error .ignoreEnd
          else (.ok, tz.next)) := by
      intro j hj
      split
      · rename_i ho
        refine StopsAt.after (P := fun o c ls => ls = [] ∧ c = .ignoreEnd ∧ (o = .none ∨ o = .eos)) (stopsAt_error ⟨rfl, rfl, by simpa using ho⟩)
          (eats_single hj) (fun h => h.next ⟨by intro h0; simp [tokVal, h0] at hj, by intro h0; simp [tokVal, h0] at hj⟩) ?_
        rintro o c a b ⟨l, rfl, hl⟩ ⟨rfl, rfl, ho⟩
        exact .after hl ho
      · exact stopsAt_ok
    unfold ignoreValue
    generalize hid : tz.cur.id = id
    cases id with
    | none => exact stopsAt_error (.stop (.inl hid))
    | eos => exact stopsAt_error (.stop (.inr hid))
    | obje => exact stopsAt_error (.head (by rw [hid]; decide) (by rw [hid]; decide) (by rw [hid]; decide))
    | colon => exact stopsAt_error (.head (by rw [hid]; decide) (by rw [hid]; decide) (by rw [hid]; decide))
    | comma => exact stopsAt_error (.head (by rw [hid]; decide) (by rw [hid]; decide) (by rw [hid]; decide))
    | arre => exact stopsAt_error (.head (by rw [hid]; decide) (by rw [hid]; decide) (by rw [hid]; decide))
    | string => exact scalar (.str tz.cur.value) (by simp only [tokVal, hid])
    | number => exact scalar (.num tz.cur.value) (by simp only [tokVal, hid])
    | nil => exact scalar .null (by simp only [tokVal, hid])
    | btrue => exact scalar (.bool true) (by simp only [tokVal, hid])
    | bfalse => exact scalar (.bool false) (by simp only [tokVal, hid])
    | objs =>
      exact (ignoreObjLoop_stops n tz.next).after (eats_fixed hid rfl) (fun h => h.step hid) (fun o c a b ha hb => by subst ha; exact .obj hb)
    | arrs =>
      exact (ignoreArrLoop_stops n tz.next).after (eats_fixed hid rfl) (fun h => h.step hid) (fun o c a b ha hb => by subst ha; exact .arr hb)
theorem ignoreArrLoop_stops {B : Hist} : (n : Nat) → (tz : Tz) → StopsAt B SkipElems tz (ignoreArrLoop n tz)
  | 0, tz => fun _ h => by simp [ignoreArrLoop] at h
  | n + 1, tz => by
    unfold ignoreArrLoop
    split
    · rename_i h
      exact fun _ he => by rw [arrEnd_stop h] at he; cases he
    · rename_i hne
      have hv := ignoreValue_stops (B := B) n tz
      have he := @ignoreValue_eats_more n tz
      have hno := @ignoreValue_noErr B n tz
      cases hx : ignoreValue n tz with
      | mk c x =>
      rw [hx] at hv he
      cases c with
      | error => exact hv.stay.mono (fun o c b hb => .elem hb.1 (fun hl => by rw [hb.2 hl]; exact hne))
      | nil => exact fun _ h => by cases h
      | fuel => exact fun _ h => by cases h
      | ok =>
        simp only
        split
        · rename_i y hy
          obtain ⟨h1, rfl⟩ := expect_true hy
          refine (ignoreArrLoop_stops n x.next).after (R := fun ls => ∃ j a, Lv false j a ∧ ls = a ++ [b!","])
            ((he rfl).append (eats_fixed h1 rfl) (fun a b ha hb => by
              obtain ⟨j, hj, _⟩ := ha; subst hb; exact ⟨j, a, hj, rfl⟩)) (fun h => (hno hx h).step h1) ?_
          rintro o c a b ⟨j, a, hj, rfl⟩ hb
          rw [List.append_assoc]
          exact .next hj hb
        · rename_i y hy
          obtain ⟨rfl, hne⟩ := expect_false' hy
          refine (ignoreArrEnd_stops y).stay.after (he rfl) (hno hx) ?_
          rintro o c a b ⟨j, hj, _, hs⟩ ⟨⟨rfl, rfl, h1⟩, h2⟩
          have h2 := h2 rfl
          subst h2
          rw [List.append_nil]
          exact .close hj hs hne h1
theorem ignoreObjLoop_stops {B : Hist} : (n : Nat) → (tz : Tz) → StopsAt B SkipMembers tz (ignoreObjLoop n tz)
  | 0, tz => fun _ h => by simp [ignoreObjLoop] at h
  | n + 1, tz => by
    unfold ignoreObjLoop
    split
    · rename_i h
      exact fun _ he => by rw [objEnd_stop h] at he; cases he
    · rename_i hne
      split
      · rename_i z hz
        obtain ⟨rfl, hk⟩ := expect_false' hz
        exact stopsAt_error (.name hne hk)
      · rename_i z hz
        obtain ⟨hk, rfl⟩ := expect_true hz
        split
        · rename_i z2 hz2
          obtain ⟨rfl, hc⟩ := expect_false' hz2
          refine StopsAt.after (P := fun o c ls => ls = [] ∧ c = .ignoreColon ∧ o ≠ .colon) (stopsAt_error ⟨rfl, rfl, hc⟩) (eats_key hk) (fun h => h.step hk) ?_
          rintro o c a b ⟨k, rfl, hk⟩ ⟨rfl, rfl, hc⟩
          exact .colon hk hc
        · rename_i z2 hz2
          obtain ⟨hc, rfl⟩ := expect_true hz2
          have hkc := (eats_key hk).append (eats_fixed hc rfl) (R := fun ls => ∃ k, ls = [k, b!":"] ∧ ScalarOf (.str tz.cur.value) k)
            (fun a b ha hb => by obtain ⟨k, rfl, hk⟩ := ha; subst hb; exact ⟨k, rfl, hk⟩)
          have hv := ignoreValue_stops (B := B) n tz.next.next
          have he := @ignoreValue_eats_more n tz.next.next
          have h2 : NoErr B tz → NoErr B tz.next.next := fun h => (h.step hk).step hc
          have hno := @ignoreValue_noErr B n tz.next.next
          cases hx : ignoreValue n tz.next.next with
          | mk c x =>
          rw [hx] at hv he
          cases c with
          | nil => exact fun _ h => by cases h
          | fuel => exact fun _ h => by cases h
          | error =>
            refine hv.after hkc h2 ?_
            rintro o c a b ⟨k, rfl, hk⟩ hb
            exact .value hk hb
          | ok =>
            simp only
            have hm := hkc.append (he rfl) (R := fun ls => ∃ k a j, ls = k :: b!":" :: a ∧
                ScalarOf (.str tz.cur.value) k ∧ Lv false j a ∧ (j.isScalar = true → x.cur.id ≠ .none ∧ x.cur.id ≠ .eos))
              (fun a b ha hb => by obtain ⟨k, rfl, hk⟩ := ha; obtain ⟨j, hb, _, hs⟩ := hb; exact ⟨k, b, j, rfl, hk, hb, hs⟩)
            split
            · rename_i y hy
              obtain ⟨h1, rfl⟩ := expect_true hy
              refine (ignoreObjLoop_stops n x.next).after (R := fun ls => ∃ k a j, ls = k :: b!":" :: (a ++ [b!","]) ∧
                ScalarOf (.str tz.cur.value) k ∧ Lv false j a)
                (hm.append (eats_fixed h1 rfl) (fun a b ha hb => by
                  obtain ⟨k, a, j, rfl, hk, hj, _⟩ := ha; subst hb; exact ⟨k, a, j, rfl, hk, hj⟩)) (fun h => (hno hx (h2 h)).step h1) ?_
              rintro o c _ b ⟨k, a, j, rfl, hk, hj⟩ hb
              have : k :: b!":" :: (a ++ [b!","]) ++ b = k :: b!":" :: (a ++ b!"," :: b) := by simp
              rw [this]
              exact .next hk hj hb
            · rename_i y hy
              obtain ⟨rfl, hne⟩ := expect_false' hy
              refine (ignoreObjEnd_stops y).stay.after hm (fun h => hno hx (h2 h)) ?_
              rintro o c _ b ⟨k, a, j, rfl, hk, hj, hs⟩ ⟨⟨rfl, rfl, h1⟩, h2⟩
              have h2 := h2 rfl
              subst h2
              rw [List.append_nil]
              exact .close hk hj hs hne h1
end

/-- A reader failed, with code, lexemes, token and object described by `C`. -/
def ReadBad {α : Type} (B : Hist) (C : TId → ECode → List Bytes → α → Prop) (tz : Tz) (r : Res α) : Prop :=
  NoErr B tz → r.1 = .error → Eats tz r.2.1 (fun ls => ∃ c, Coded B r.2.1 c ∧ C r.2.1.cur.id c ls r.2.2)

theorem readBad_error {α : Type} {B : Hist} {C : TId → ECode → List Bytes → α → Prop} {tz : Tz} {c : ECode} {v : α}
    (h : C tz.cur.id c [] v) : ReadBad B C tz ((tz.error c).1, (tz.error c).2, v) := fun hn _ =>
  eats_stop.mono (fun ls hl => ⟨c, error_coded hn c, by rw [hl]; simp only [error_cur]; exact h⟩)

theorem readBad_not {α : Type} {B : Hist} {C : TId → ECode → List Bytes → α → Prop} {tz : Tz} {r : Res α} (h : r.1 ≠ .error) :
    ReadBad B C tz r := fun _ he => absurd he h

theorem ReadBad.map {α β : Type} {B : Hist} {C : TId → ECode → List Bytes → α → Prop} {D : TId → ECode → List Bytes → β → Prop} {tz : Tz}
    {r : Res α} {g : RC → α → β} (h : ReadBad B C tz r) (hcd : ∀ o c ls x, C o c ls x → D o c ls (g .error x)) :
    ReadBad B D tz (r.1, r.2.1, g r.1 r.2.2) := fun hn he =>
  (h hn he).mono (fun ls hl => by
    obtain ⟨c, h1, h2⟩ := hl
    simp only at he
    refine ⟨c, h1, ?_⟩
    simp only [he]
    exact hcd _ _ _ _ h2)

theorem ReadBad.mono {α : Type} {B : Hist} {C D : TId → ECode → List Bytes → α → Prop} {tz : Tz} {r : Res α}
    (h : ReadBad B C tz r) (hcd : ∀ o c ls x, C o c ls x → D o c ls x) : ReadBad B D tz r := fun hn he =>
  (h hn he).mono (fun ls hl => by
    obtain ⟨c, h1, h2⟩ := hl
    exact ⟨c, h1, hcd _ _ _ _ h2⟩)

theorem ReadBad.after {α : Type} {B : Hist} {C D : TId → ECode → List Bytes → α → Prop} {R : List Bytes → Prop} {tz x : Tz} {r : Res α}
    (h : ReadBad B C x r) (he : Eats tz x R) (hn : NoErr B tz → NoErr B x) (hcd : ∀ o c a b w, R a → C o c b w → D o c (a ++ b) w) :
    ReadBad B D tz r := fun h1 h2 =>
  he.append (h (hn h1) h2) (fun a b ha hb => by
    obtain ⟨c, h3, h4⟩ := hb
    exact ⟨c, h3, hcd _ _ _ _ _ ha h4⟩)

theorem Prim.read_bad {B : Hist} (p : Prim) (tz : Tz) (v : p.Den) :
    ReadBad B (fun o c ls v' => ls = [] ∧ o ∉ p.tokens ∧ o ≠ .nil ∧ c = p.complaint ∧ v' = v) tz (p.read tz v) := by
  cases p with
  | int k =>
    simp only [Prim.read]
    split
    · exact readBad_not (by simp)
    · split
      · rename_i h1 h2; exact readBad_error ⟨rfl, by simpa [Prim.tokens] using h2, h1, rfl, rfl⟩
      · exact readBad_not (by simp)
  | flt k =>
    simp only [Prim.read]
    split
    · exact readBad_not (by simp)
    · split
      · rename_i h1 h2; exact readBad_error ⟨rfl, by simpa [Prim.tokens] using h2, h1, rfl, rfl⟩
      · exact readBad_not (by simp)
  | bool =>
    simp only [Prim.read]
    split
    · exact readBad_not (by simp)
    · split
      · rename_i h1 h2; exact readBad_error ⟨rfl, by simpa [Prim.tokens] using h2, h1, rfl, rfl⟩
      · exact readBad_not (by simp)

theorem stringRead_bad {B : Hist} (tz : Tz) (v : Bytes) :
    ReadBad B (fun o c ls v' => ls = [] ∧ o ≠ .string ∧ o ≠ .nil ∧ c = .invalidString ∧ v' = v) tz (stringRead tz v) := by
  unfold stringRead
  split
  · exact readBad_not (by simp)
  · rename_i h1
    split
    · rename_i x hx
      obtain ⟨rfl, h2⟩ := expect_false' hx
      exact readBad_error ⟨rfl, h2, h1, rfl, rfl⟩
    · exact readBad_not (by simp)

theorem bytesRead_bad {B : Hist} (tz : Tz) (v : List Byte) :
    ReadBad B (fun o c ls v' => ls = [] ∧ o ≠ .string ∧ o ≠ .nil ∧ c = .invalidBytes ∧ v' = v) tz (bytesRead tz v) := by
  unfold bytesRead
  split
  · exact readBad_not (by simp)
  · rename_i h1
    split
    · rename_i h2
      exact readBad_error ⟨rfl, h2, h1, rfl, rfl⟩
    · exact readBad_not (by simp)

theorem readArrLoop_bad {α : Type} {B : Hist} {P : J → List Bytes → Prop} {f : J → RC × α} {C : TId → ECode → List Bytes → α → Prop}
    {rd : Tz → Res α} (hrd : ∀ tz, ReadOk P f tz (rd tz)) (hbad : ∀ tz, ReadBad B C tz (rd tz))
    (hno : ∀ tz, NoErr B tz → EOk B (rd tz)) :
    (n : Nat) → (tz : Tz) → (v : List α) →
    ReadBad B (ElemsCut P f (fun o c ls => ∃ x, C o c ls x) v) tz (readArrLoop rd n tz v)
  | 0, tz, v => readBad_not (by simp [readArrLoop])
  | n + 1, tz, v => by
    have h := hrd tz
    have hb := hbad tz
    have hn := hno tz
    unfold readArrLoop
    cases hx : rd tz with
    | mk c r =>
    obtain ⟨x, a⟩ := r
    rw [hx] at h hb hn
    cases c with
    | error =>
      intro h1 h2
      exact (hb h1 h2).mono (fun ls hl => by
        obtain ⟨c, h3, h4⟩ := hl
        exact ⟨c, h3, .elem ⟨a, h4⟩⟩)
    | fuel => exact readBad_not (by simp)
    | nil =>
      obtain ⟨hn, hid, _⟩ := h.2 rfl
      simp only at hn; subst hn
      simp only [expect_neg (tz := x) (t := .comma) (by rw [hid]; decide), expect_neg (tz := x) (t := .arre) (by rw [hid]; decide)]
      exact readBad_error (by rw [hid]; exact .null)
    | ok =>
      have hv := h.1 rfl
      have hn : NoErr B tz → NoErr B x := fun h0 => (hn h0).2 (by simp)
      simp only at hv
      simp only
      split
      · rename_i y hy
        obtain ⟨h1, rfl⟩ := expect_true hy
        simp only [if_true]
        refine (readArrLoop_bad hrd hbad hno n x.next (v ++ [a])).after
          (R := fun ls => ∃ j l, P j l ∧ f j = (.ok, a) ∧ ls = l ++ [b!","])
          (hv.append (eats_fixed h1 rfl) (fun l b ha hb => by
            obtain ⟨j, hj, hf⟩ := ha; subst hb; exact ⟨j, l, hj, hf, rfl⟩)) (fun h => (hn h).step h1) ?_
        rintro o c _ b w ⟨j, l, hj, hf, rfl⟩ hb
        rw [List.append_assoc]
        exact .next hj hf hb
      · rename_i y hy
        obtain ⟨rfl, hne⟩ := expect_false' hy
        split
        · exact readBad_not (by simp)
        · rename_i z hz
          obtain ⟨rfl, hne2⟩ := expect_false' hz
          simp only [if_true]
          refine ReadBad.after (C := fun o c ls w => ls = [] ∧ o ≠ .comma ∧ o ≠ .arre ∧ c = .invalidArray ∧ w = v ++ [a])
            (readBad_error ⟨rfl, hne, hne2, rfl, rfl⟩) hv hn ?_
          rintro o c l b w ⟨j, hj, hf⟩ ⟨rfl, h1, h2, rfl, rfl⟩
          rw [List.append_nil]
          exact .close hj hf h1 h2

/-- The element reader that fails without consuming anything still stands at the same token. -/
theorem Eats.stay {tz x : Tz} {P : List Bytes → Prop} (h : Eats tz x P) : Eats tz x (fun ls => P ls ∧ (ls = [] → x.cur = tz.cur)) :=
  fun s hs => by
    obtain ⟨s', ls, h5, h6, h7⟩ := h s hs
    refine ⟨s', ls, h5, h6, h7, ?_⟩
    intro hl
    subst hl
    have hs' : s' = s := h6
    subst hs'
    exact congrArg Prod.fst (h5.2.symm.trans hs.2)

theorem ReadBad.stay {α : Type} {B : Hist} {C : TId → ECode → List Bytes → α → Prop} {tz : Tz} {r : Res α} (h : ReadBad B C tz r) :
    ReadBad B (fun o c ls w => C o c ls w ∧ (ls = [] → o = tz.cur.id)) tz r := fun h1 h2 =>
  (h h1 h2).stay.mono (fun ls hl => by
    obtain ⟨⟨c, h3, h4⟩, h5⟩ := hl
    exact ⟨c, h3, h4, fun hl => by rw [h5 hl]⟩)

theorem readArr_bad {α : Type} {B : Hist} {P : J → List Bytes → Prop} {f : J → RC × α} {C : TId → ECode → List Bytes → α → Prop}
    {rd : Tz → Res α} (hrd : ∀ tz, ReadOk P f tz (rd tz)) (hbad : ∀ tz, ReadBad B C tz (rd tz))
    (hno : ∀ tz, NoErr B tz → EOk B (rd tz)) (n : Nat) (tz : Tz) (v : List α) :
    ReadBad B (fun o c ls v' => (ls = [] ∧ o ≠ .arrs ∧ o ≠ .nil ∧ c = .invalidArray ∧ v' = v) ∨
      ∃ inner, ls = b!"[" :: inner ∧ (inner = [] → o ≠ .arre) ∧
        ElemsCut P f (fun o c ls => ∃ x, C o c ls x) v o c inner v') tz (readArr rd n tz v) := by
  unfold readArr
  split
  · exact readBad_not (by simp)
  · rename_i hnil
    split
    · rename_i x hx
      obtain ⟨rfl, h1⟩ := expect_false' hx
      exact readBad_error (.inl ⟨rfl, h1, hnil, rfl, rfl⟩)
    · rename_i x hx
      obtain ⟨h1, rfl⟩ := expect_true hx
      split
      · exact readBad_not (by simp)
      · rename_i y hy
        obtain ⟨rfl, h2⟩ := expect_false' hy
        refine (readArrLoop_bad hrd hbad hno n tz.next v).stay.after (eats_fixed h1 rfl) (fun h => h.step h1) ?_
        rintro o c a b w rfl ⟨hc, hs⟩
        exact .inr ⟨b, rfl, fun hb => by rw [hs hb]; exact h2, hc⟩

theorem ignoreValue_nil_stops {B : Hist} (n : Nat) {tz : Tz} (hid : tz.cur.id = .nil) :
    StopsAt B (fun o c ls => Single .null ls ∧ c = .ignoreEnd ∧ (o = .none ∨ o = .eos)) tz (ignoreValue n tz) := by
  cases n with
  | zero => exact fun _ h => by simp [ignoreValue] at h
  | succ n =>
    unfold ignoreValue
    rw [hid]
    simp only
    split
    · rename_i ho
      refine StopsAt.after (P := fun o c ls => ls = [] ∧ c = .ignoreEnd ∧ (o = .none ∨ o = .eos)) (stopsAt_error ⟨rfl, rfl, by simpa using ho⟩)
        (eats_single (j := .null) (by simp only [tokVal, hid])) (fun h => h.step hid) ?_
      rintro o c a b ha ⟨rfl, rfl, ho⟩
      rw [List.append_nil]
      exact ⟨ha, rfl, ho⟩
    · exact stopsAt_ok

theorem readObjLoop_bad {α : Type} {B : Hist} {P : Bytes → J → List Bytes → Prop} {f : Bytes → J → α → RC × α}
    {C : Bytes → α → TId → ECode → List Bytes → α → Prop} {rf : Bytes → Tz → α → Res α}
    (hrf : ∀ nm tz v, FieldOk (P nm) (fun j => f nm j v) tz (rf nm tz v))
    (hbad : ∀ nm tz v, ReadBad B (C nm v) tz (rf nm tz v))
    (hskip : ∀ nm tz v x w, rf nm tz v = (.nil, x, w) → tz.cur.id ≠ .nil → ∀ o c ls, SkipCut o c ls → C nm v o c ls w)
    (hno : ∀ nm tz v, NoErr B tz → EOk B (rf nm tz v)) : (n : Nat) → (tz : Tz) → (v : α) →
    ReadBad B (MembersCut P f C v) tz (readObjLoop rf n tz v)
  | 0, tz, v => readBad_not (by simp [readObjLoop])
  | n + 1, tz, v => by
    -- the tail of an iteration
    have step : ∀ (x : Tz) (w : α) (nm : Bytes), (NoErr B tz → NoErr B x) →
        Eats tz x (fun ls => ∃ k a j rc, ls = k :: b!":" :: a ∧ ScalarOf (.str nm) k ∧ P nm j a ∧
          f nm j v = (rc, w) ∧ (rc = .ok ∨ rc = .nil) ∧ (rc = .nil → j.isScalar = true → x.cur.id ≠ .none ∧ x.cur.id ≠ .eos)) →
        ReadBad B (MembersCut P f C v) tz (match objStep x with
          | (none, tz) => readObjLoop rf n tz w
          | (some r, tz) => (r, tz, w)) := by
      intro x w nm hn hv
      unfold objStep
      split
      · rename_i c tz' hx
        split at hx
        · rename_i y hy
          obtain ⟨h1, rfl⟩ := expect_true hy
          simp only [Prod.mk.injEq, true_and] at hx
          subst hx
          refine (readObjLoop_bad hrf hbad hskip hno n x.next w).after
            (R := fun ls => ∃ k a j rc, ls = k :: b!":" :: (a ++ [b!","]) ∧ ScalarOf (.str nm) k ∧ P nm j a ∧
              f nm j v = (rc, w) ∧ (rc = .ok ∨ rc = .nil))
            (hv.append (eats_fixed h1 rfl) (fun l b ha hb => by
              obtain ⟨k, a, j, rc, rfl, h2, h3, h4, h5, -⟩ := ha; subst hb; exact ⟨k, a, j, rc, rfl, h2, h3, h4, h5⟩))
            (fun h => (hn h).step h1) ?_
          rintro o c _ b u ⟨k, a, j, rc, rfl, h2, h3, h4, h5⟩ hb
          have : k :: b!":" :: (a ++ [b!","]) ++ b = k :: b!":" :: (a ++ b!"," :: b) := by simp
          rw [this]
          exact .next h2 h3 h4 h5 hb
        · split at hx <;> simp at hx
      · rename_i r' tz' hx
        split at hx
        · simp at hx
        · rename_i y hy
          obtain ⟨rfl, h1⟩ := expect_false' hy
          split at hx
          · rename_i z hz
            simp only [Prod.mk.injEq, Option.some.injEq] at hx
            obtain ⟨rfl, rfl⟩ := hx
            exact readBad_not (by simp)
          · rename_i z hz
            obtain ⟨h0, h2⟩ := expect_false' hz
            subst h0
            simp only [Prod.mk.injEq, Option.some.injEq] at hx
            obtain ⟨rfl, rfl⟩ := hx
            refine ReadBad.after (C := fun o c ls u => ls = [] ∧ o = z.cur.id ∧ c = .invalidObject ∧ u = w)
              (readBad_error ⟨rfl, rfl, rfl, rfl⟩) hv hn ?_
            rintro o c _ b u ⟨k, a, j, rc, rfl, h3, h4, h5, h6, h7⟩ ⟨rfl, rfl, rfl, rfl⟩
            rw [List.append_nil]
            exact .close h3 h4 h5 h6 h7 h1 h2
    generalize hr : readObjLoop rf (n + 1) tz v = r
    unfold readObjLoop at hr
    simp only at hr
    split at hr
    · rename_i z hz
      obtain ⟨rfl, h1⟩ := expect_false' hz
      subst hr
      exact readBad_error (.name h1)
    · rename_i z hz
      obtain ⟨hk, rfl⟩ := expect_true hz
      split at hr
      · rename_i z2 hz2
        obtain ⟨rfl, h1⟩ := expect_false' hz2
        subst hr
        refine ReadBad.after (C := fun o c ls u => ls = [] ∧ o ≠ .colon ∧ c = .invalidSeparator ∧ u = v)
          (readBad_error ⟨rfl, h1, rfl, rfl⟩) (eats_key hk) (fun h => h.step hk) ?_
        rintro o c _ b u ⟨k, rfl, hk⟩ ⟨rfl, h1, rfl, rfl⟩
        exact .colon hk h1
      · rename_i z2 hz2
        obtain ⟨hc, rfl⟩ := expect_true hz2
        have hkc := (eats_key hk).append (eats_fixed hc rfl) (R := fun ls => ∃ k, ls = [k, b!":"] ∧ ScalarOf (.str tz.cur.value) k)
          (fun a b ha hb => by obtain ⟨k, rfl, hk⟩ := ha; subst hb; exact ⟨k, rfl, hk⟩)
        have h2 : NoErr B tz → NoErr B tz.next.next := fun h => (h.step hk).step hc
        have h := hrf tz.cur.value tz.next.next v
        have hb := hbad tz.cur.value tz.next.next v
        have hs := hskip tz.cur.value tz.next.next v
        have hn := hno tz.cur.value tz.next.next v
        cases hx : rf tz.cur.value tz.next.next v with
        | mk c q =>
        obtain ⟨x, w⟩ := q
        rw [hx] at h hr hb hs hn
        cases c with
        | error =>
          simp only at hr; subst hr
          refine hb.after hkc h2 ?_
          rintro o c _ b u ⟨k, rfl, hk⟩ hb
          exact .value hk hb
        | fuel => simp only at hr; subst hr; exact readBad_not (by simp)
        | ok =>
          rw [← hr]
          refine step x w tz.cur.value (fun h0 => (hn (h2 h0)).2 (by simp)) (hkc.append (h.1 rfl) ?_)
          rintro a b ⟨k, rfl, hk⟩ ⟨j, h1, h2⟩
          exact ⟨k, b, j, .ok, rfl, hk, h1, h2, .inl rfl, by simp⟩
        | nil =>
          obtain ⟨hst, hnil⟩ := h.2 rfl
          simp only at hst hnil
          subst hst
          have hn : NoErr B tz.next.next → NoErr B tz.next.next := fun h => h
          simp only at hr
          have hv := ignoreValue_stops (B := B) n tz.next.next
          have hv0 := @ignoreValue_nil_stops B n tz.next.next
          have hno' := @ignoreValue_noErr B n tz.next.next
          cases hi : ignoreValue n tz.next.next with
          | mk c y =>
          rw [hi] at hr hv hv0
          cases c with
          | fuel => simp only at hr; subst hr; exact readBad_not (by simp)
          | nil => exact absurd (congrArg Prod.fst hi) (ignoreValue_not_nil n _)
          | error =>
            simp only at hr; subst hr
            have h2' := h2
            intro h1 h2
            by_cases hid : tz.next.next.cur.id = .nil
            · refine (hkc.append (hv0 hid (h2' h1) rfl) ?_)
              rintro a b ⟨k, rfl, hk⟩ ⟨c, h3, h5, rfl, h6⟩
              obtain ⟨l, rfl, hl⟩ := h5
              exact ⟨.ignoreEnd, h3, .last hk ((hnil .null (fun _ => rfl)).2 _ (.tok hl)) (hnil .null (fun _ => rfl)).1 rfl h6⟩
            · refine (hkc.append (hv (h2' h1) rfl) ?_)
              rintro a b ⟨k, rfl, hk⟩ ⟨c, h3, h5⟩
              exact ⟨c, h3, .value hk (hs _ _ rfl hid _ _ _ h5)⟩
          | ok =>
            rw [← hr]
            refine step y w tz.cur.value (fun h0 => hno' hi (h2 h0)) (hkc.append (ignoreValue_eats_more hi) ?_)
            rintro a b ⟨k, rfl, hk⟩ ⟨j, h1, h2, h3⟩
            exact ⟨k, b, j, .nil, rfl, hk, (hnil j h2).2 _ h1, (hnil j h2).1, .inr rfl, fun _ => h3⟩

theorem readObj_bad {α : Type} {B : Hist} {P : Bytes → J → List Bytes → Prop} {f : Bytes → J → α → RC × α}
    {C : Bytes → α → TId → ECode → List Bytes → α → Prop} {rf : Bytes → Tz → α → Res α}
    (hrf : ∀ nm tz v, FieldOk (P nm) (fun j => f nm j v) tz (rf nm tz v))
    (hbad : ∀ nm tz v, ReadBad B (C nm v) tz (rf nm tz v))
    (hskip : ∀ nm tz v x w, rf nm tz v = (.nil, x, w) → tz.cur.id ≠ .nil → ∀ o c ls, SkipCut o c ls → C nm v o c ls w)
    (hno : ∀ nm tz v, NoErr B tz → EOk B (rf nm tz v)) (n : Nat) (tz : Tz) (v : α) :
    ReadBad B (fun o c ls v' => (ls = [] ∧ o ≠ .objs ∧ o ≠ .nil ∧ c = .invalidStart ∧ v' = v) ∨
      ∃ inner, ls = b!"{" :: inner ∧ (inner = [] → o ≠ .obje) ∧ MembersCut P f C v o c inner v') tz (readObj rf n tz v) := by
  unfold readObj
  split
  · exact readBad_not (by simp)
  · rename_i hnil
    split
    · rename_i x hx
      obtain ⟨rfl, h1⟩ := expect_false' hx
      exact readBad_error (.inl ⟨rfl, h1, hnil, rfl, rfl⟩)
    · rename_i x hx
      obtain ⟨h1, rfl⟩ := expect_true hx
      split
      · exact readBad_not (by simp)
      · rename_i y hy
        obtain ⟨rfl, h2⟩ := expect_false' hy
        refine (readObjLoop_bad hrf hbad hskip hno n tz.next v).stay.after (eats_fixed h1 rfl) (fun h => h.step h1) ?_
        rintro o c a b w rfl ⟨hc, hs⟩
        exact .inr ⟨b, rfl, fun hb => by rw [hs hb]; exact h2, hc⟩

theorem Fields.readAt_skip : (fs : Fields) → (i n : Nat) → (tz : Tz) → (v : fs.Den) → (x : Tz) → (w : fs.Den) →
    fs.readAt i n tz v = (.nil, x, w) → tz.cur.id ≠ .nil → ∀ o c ls, SkipCut o c ls → CutAt fs i v o c ls w
  | .nil, i, n, tz, v, x, w, h, _, o, c, ls, hs => by
    unfold Fields.readAt at h
    unfold CutAt
    exact ⟨hs, rfl⟩
  | .cons f t rest, i, n, tz, v, x, w, h, hid, o, c, ls, hs => by
    unfold Fields.readAt at h
    unfold CutAt
    by_cases hf : f.transient = true
    · simp only [hf, if_true, Prod.mk.injEq] at h ⊢
      obtain ⟨h1, h2, rfl⟩ := h
      exact ⟨rfl, Fields.readAt_skip rest i n tz v.2 x _ (by rw [← h1, ← h2]) hid o c ls hs⟩
    · simp only [Bool.not_eq_true] at hf
      simp only [hf, Bool.false_eq_true, if_false] at h ⊢
      cases i with
      | zero =>
        simp only [Prod.mk.injEq] at h
        have := Ty.read_means t n tz v.1
        exact absurd (this.2 h.1).2.1 hid
      | succ i =>
        simp only [Prod.mk.injEq] at h ⊢
        obtain ⟨h1, h2, rfl⟩ := h
        exact ⟨rfl, Fields.readAt_skip rest i n tz v.2 x _ (by rw [← h1, ← h2]) hid o c ls hs⟩

mutual
theorem Ty.read_bad {B : Hist} : (t : Ty) → (t.NoBytes ∨ B.Notes) → (n : Nat) → (tz : Tz) → (v : t.Den) →
    ReadBad B (Cut t v) tz (t.read n tz v)
  | .num p, _, n, tz, v => (p.read_bad tz p.zero).map (g := fun c a => if c ≠ .nil then v.assignT a else v) (by
      rintro o c ls x ⟨h1, h2, h3, h4, rfl⟩
      exact ⟨h1, h2, h3, h4, rfl⟩)
  | .raw p, _, n, tz, v => (p.read_bad tz v)
  | .str, _, n, tz, v => (stringRead_bad tz []).map (g := fun c a => (v.setEmpty (c = .nil)).assignT a) (by
      rintro o c ls x ⟨h1, h2, h3, h4, rfl⟩
      exact ⟨h1, h2, h3, h4, rfl⟩)
  | .bytes, _, n, tz, v => bytesRead_bad tz v
  | .rep t, hB, n, tz, v =>
    (readArr_bad (fun tz => Ty.read_means t n tz t.new) (fun tz => Ty.read_bad t (hB.imp_left (by simp [Ty.NoBytes])) n tz t.new)
      (fun tz h => Ty.read_eok t (hB.imp_left (by simp [Ty.NoBytes])) n h t.new) n tz v).map (g := fun _ a => a) (by
      intro o c ls x h
      unfold Cut
      exact h)
  | .msg obf fs, hB, n, tz, v => by
    have hB' : fs.NoBytes ∨ B.Notes := hB.imp_left (by simp [Ty.NoBytes])
    exact (readObj_bad (P := ReadsKey obf fs) (rf := fun name tz v => match indexOf obf fs name with
        | none => (.nil, tz, v)
        | some i => fs.readAt i n tz v) (f := fun k j v => match indexOf obf fs k with
        | none => (.nil, v)
        | some i => fs.absorbAt i j v)
      (C := fun k v o c ls v' => match indexOf obf fs k with
          | none => SkipCut o c ls ∧ v' = v
          | some i => CutAt fs i v o c ls v')
      (fun nm tz v => by
        unfold ReadsKey
        cases indexOf obf fs nm with
        | none => exact ⟨fun h => (by cases h), fun _ => ⟨rfl, fun j _ => ⟨rfl, fun _ h => h⟩⟩⟩
        | some i => exact Fields.readAt_means fs i n tz v)
      (fun nm tz v => by
        cases indexOf obf fs nm with
        | none => exact readBad_not (by simp)
        | some i => exact Fields.readAt_bad fs hB' i n tz v)
      (fun nm tz v x w h hid o c ls hs => by
        cases hi : indexOf obf fs nm with
        | none =>
          rw [hi] at h
          simp only [Prod.mk.injEq, true_and] at h
          exact ⟨hs, h.2.symm⟩
        | some i => rw [hi] at h; exact Fields.readAt_skip fs i n tz v x w h hid o c ls hs)
      (fun nm tz v h => by
        cases indexOf obf fs nm with
        | none => exact eok_of (by decide) h _
        | some i => exact Fields.readAt_eok fs hB' i n h v) n tz v).map (g := fun _ a => a) (by
      intro o c ls x h
      unfold Cut
      exact h)
theorem Fields.readAt_bad {B : Hist} : (fs : Fields) → (fs.NoBytes ∨ B.Notes) → (i n : Nat) → (tz : Tz) → (v : fs.Den) →
    ReadBad B (CutAt fs i v) tz (fs.readAt i n tz v)
  | .nil, _, i, n, tz, v => readBad_not (by simp [Fields.readAt])
  | .cons f t rest, hB, i, n, tz, v => by
    have hb1 : t.NoBytes ∨ B.Notes := hB.imp_left (fun h => by unfold Fields.NoBytes at h; exact h.1)
    have hb2 : rest.NoBytes ∨ B.Notes := hB.imp_left (fun h => by unfold Fields.NoBytes at h; exact h.2)
    unfold Fields.readAt
    by_cases hf : f.transient = true
    · simp only [hf, if_true]
      exact (Fields.readAt_bad rest hb2 i n tz v.2).map (g := fun _ b => (v.1, b)) (by
        intro o c ls x h; unfold CutAt; simp only [hf, if_true]; exact ⟨trivial, h⟩)
    · simp only [hf]
      cases i with
      | zero =>
        exact (Ty.read_bad t hb1 n tz v.1).map (g := fun _ b => (b, v.2)) (by
          intro o c ls x h; unfold CutAt; simp only [hf]; exact ⟨trivial, h⟩)
      | succ i =>
        exact (Fields.readAt_bad rest hb2 i n tz v.2).map (g := fun _ b => (v.1, b)) (by
          intro o c ls x h; unfold CutAt; simp only [hf]; exact ⟨trivial, h⟩)
end

end PG
