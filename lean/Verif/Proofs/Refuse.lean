import Verif.Proofs.Viable
/-
Every document that `Cut` describes is refused, with the prescribed code and object.
-/
set_option autoImplicit false
namespace PG

/-- What follows the lexemes does not continue the last one. -/
def LastEnd (ls : List Bytes) (rest : Bytes) : Prop := ∀ l j, ls.getLast? = some l → ScalarOf j l → JEnd j rest

theorem LastEnd.tail {a ls : List Bytes} {rest : Bytes} (h : LastEnd (a ++ ls) rest) : LastEnd ls rest := fun l j hl hs =>
  h l j (by rw [List.getLast?_append, hl]; rfl) hs

theorem LastEnd.cons {l : Bytes} {ls : List Bytes} {rest : Bytes} (h : LastEnd (l :: ls) rest) : LastEnd ls rest :=
  LastEnd.tail (a := [l]) h

theorem _root_.PG.Lv.ends {s : Bool} {j : J} {a : List Bytes} {rest : Bytes} (hl : Lv s j a) (h : LastEnd a rest) : EndsFor j [] rest := by
  intro bs hu
  cases hu
  cases hl with
  | tok hs => exact h _ _ rfl hs
  | _ => trivial

/-- The token at `rest`. -/
def KindAt (rest : Bytes) (o : TId) : Prop := ∀ tz, Stand tz [] rest → tz.cur.id = o

theorem Stand.error {tz : Tz} {ls : List Bytes} {rest : Bytes} (h : Stand tz ls rest) (c : ECode) : Stand (tz.error c).2 ls rest := by
  obtain ⟨bs, hu, ha⟩ := h
  exact ⟨bs, hu, ha.error c⟩

/-- A reader gives up before `rest`. -/
def Fails {α : Type} (B : Hist) (c : ECode) (v' : α) (rest : Bytes) (res : Res α) : Prop :=
  ∃ tz', res = (.error, tz', v') ∧ Stand tz' [] rest ∧ Coded B tz' c

/-- Skipping gives up before `rest`. -/
def FailsS (B : Hist) (c : ECode) (rest : Bytes) (res : RC × Tz) : Prop :=
  ∃ tz', res = (.error, tz') ∧ Stand tz' [] rest ∧ Coded B tz' c

theorem failsS_error {B : Hist} {rest : Bytes} {tz : Tz} {c : ECode} (hs : Stand tz [] rest) (hn : NoErr B tz) :
    FailsS B c rest (tz.error c) :=
  ⟨(tz.error c).2, by rw [← error_fst tz c], hs.error _, error_coded hn _⟩

theorem fails_error {α : Type} {B : Hist} {rest : Bytes} {tz : Tz} {c : ECode} {v : α} (hs : Stand tz [] rest) (hn : NoErr B tz) :
    Fails B c v rest ((tz.error c).1, (tz.error c).2, v) :=
  ⟨(tz.error c).2, by rw [error_fst], hs.error _, error_coded hn _⟩

theorem tz_eta {x : RC × Tz} {c : RC} (h : x.1 = c) : x = (c, x.2) := by rw [← h]

/-- A skipped value followed by something else than a comma or a closing bracket. -/
theorem skips_last {s : Bool} {j : J} {a : List Bytes} (hl : Lv s j a) {rest : Bytes} {tz : Tz} {n : Nat} {o : TId} (hk : KindAt rest o)
    (hend : LastEnd a rest) (ho : j.isScalar = true → o ≠ .none ∧ o ≠ .eos) (hn : 2 * a.length ≤ n) (h : Stand tz a rest) :
    ∃ tz', ignoreValue n tz = (.ok, tz') ∧ Stand tz' [] rest := by
  have h' : Stand tz (a ++ []) rest := by simpa using h
  cases hl with
  | @tok _ _ l hs =>
    obtain ⟨n, rfl⟩ : ∃ m, n = m + 1 := ⟨n - 1, by simp at hn; omega⟩
    obtain ⟨v, hv⟩ := scalarOf_val hs
    obtain ⟨h1, -, h2⟩ := Stand.scalar (ls := []) h hs hv (Lv.ends (.tok (s := s) hs) hend)
    have h3 := hk _ h2
    refine ⟨tz.next, ?_, h2⟩
    unfold ignoreValue
    rw [h1]
    cases j with
    | arr _ => cases hv
    | obj _ => cases hv
    | bool x => obtain ⟨h4, h5⟩ := ho rfl; cases x <;> simp [headTok, h3, h4, h5]
    | _ => obtain ⟨h4, h5⟩ := ho rfl; simp [headTok, h3, h4, h5]
  | arr0 =>
    simp at hn
    obtain ⟨n, rfl⟩ : ∃ m, n = m + 1 := ⟨n - 1, by omega⟩
    obtain ⟨h1, h2⟩ := Stand.mark (id := .arrs) h (by decide)
    obtain ⟨tz', h3, h4⟩ := skip_arr_end (n := n) h2 (by omega)
    exact ⟨tz', by unfold ignoreValue; rw [h1]; exact h3, h4⟩
  | obj0 =>
    simp at hn
    obtain ⟨n, rfl⟩ : ∃ m, n = m + 1 := ⟨n - 1, by omega⟩
    obtain ⟨h1, h2⟩ := Stand.mark (id := .objs) h (by decide)
    obtain ⟨tz', h3, h4⟩ := skip_obj_end (n := n) h2 (by omega)
    exact ⟨tz', by unfold ignoreValue; rw [h1]; exact h3, h4⟩
  | arr hi =>
    simp at hn
    obtain ⟨n, rfl⟩ : ∃ m, n = m + 1 := ⟨n - 1, by omega⟩
    obtain ⟨h1, h2⟩ := Stand.mark (id := .arrs) h (by decide)
    obtain ⟨tz', h3, h4⟩ := skipsElems hi (n := n) (us := []) (by omega) h2
    exact ⟨tz', by unfold ignoreValue; rw [h1]; exact h3, h4⟩
  | obj hi =>
    simp at hn
    obtain ⟨n, rfl⟩ : ∃ m, n = m + 1 := ⟨n - 1, by omega⟩
    obtain ⟨h1, h2⟩ := Stand.mark (id := .objs) h (by decide)
    obtain ⟨tz', h3, h4⟩ := skipsMembers hi (n := n) (us := []) (by omega) h2
    exact ⟨tz', by unfold ignoreValue; rw [h1]; exact h3, h4⟩

theorem headTok_proper (j : J) : (headTok j).Proper := by
  cases j with
  | bool b => cases b <;> decide
  | _ => simp [headTok, TId.Proper]

/-- A skipped scalar at the end of the input, or before garbage. -/
theorem skip_scalar_fails {B : Hist} {j : J} {l : Bytes} (hs : ScalarOf j l) {rest : Bytes} {tz : Tz} {n : Nat} {o : TId}
    (hk : KindAt rest o) (hend : LastEnd [l] rest) (ho : o = .none ∨ o = .eos) (hn : 1 ≤ n) (h : Stand tz [l] rest) (hne : NoErr B tz) :
    FailsS B .ignoreEnd rest (ignoreValue n tz) := by
  obtain ⟨n, rfl⟩ : ∃ m, n = m + 1 := ⟨n - 1, by omega⟩
  obtain ⟨v, hv⟩ := scalarOf_val hs
  obtain ⟨h1, -, h2⟩ := Stand.scalar (ls := []) h hs hv (Lv.ends (.tok (s := true) hs) hend)
  have h3 := hk _ h2
  have hf := failsS_error (c := .ignoreEnd) h2 (hne.next (by rw [h1]; exact headTok_proper j))
  unfold ignoreValue
  rw [h1]
  have ht : (decide (tz.next.cur.id = .none) || decide (tz.next.cur.id = .eos)) = true := by
    rw [h3]; rcases ho with rfl | rfl <;> decide
  cases j with
  | arr _ => cases hv
  | obj _ => cases hv
  | bool x => cases x <;> (simp only [headTok, ht, if_true]; exact hf)
  | _ => simp only [headTok, ht, if_true]; exact hf

theorem Lv.closer_or {s : Bool} {j : J} {a : List Bytes} (hl : Lv s j a) {rest : Bytes} {tz : Tz}
    (hend : LastEnd a rest) (h : Stand tz a rest) : tz.cur.id = headTok j :=
  Stand.head hl (us := []) (by simpa using h) (hl.ends hend)

/-- A cut array or object that is skipped does not begin with a closing bracket. -/
theorem SkipCut.first {o : TId} {c : ECode} {ls : List Bytes} (h : SkipCut o c ls) {rest : Bytes} {tz : Tz} (hk : KindAt rest o)
    (hend : LastEnd ls rest) (hs : Stand tz ls rest) (h0 : ls = [] → o ≠ .arre) : tz.cur.id ≠ .arre := by
  cases h with
  | stop _ => rw [hk _ hs]; exact h0 rfl
  | head _ _ _ => rw [hk _ hs]; exact h0 rfl
  | after hs' _ =>
    rw [Lv.closer_or (.tok (s := true) hs') hend hs]
    exact (headTok_not_sep _).2.1
  | arr _ => rw [(Stand.mark (id := .arrs) hs (by decide)).1]; decide
  | obj _ => rw [(Stand.mark (id := .objs) hs (by decide)).1]; decide

mutual
theorem SkipCut.fails {B : Hist} {o : TId} : {c : ECode} → {ls : List Bytes} → SkipCut o c ls → ∀ {rest : Bytes} {tz : Tz} {n : Nat}, KindAt rest o →
    LastEnd ls rest → 2 * ls.length + 1 ≤ n → Stand tz ls rest → NoErr B tz → FailsS B c rest (ignoreValue n tz)
  | _, _, .stop h, rest, tz, n, hk, hend, hn, hs, hne => by
    obtain ⟨n, rfl⟩ : ∃ m, n = m + 1 := ⟨n - 1, by omega⟩
    have hid := hk _ hs
    have hf := failsS_error (c := .ignoreEnd) hs hne
    unfold ignoreValue
    rw [hid]
    rcases h with rfl | rfl <;> exact hf
  | _, _, .head h h1 h2, rest, tz, n, hk, hend, hn, hs, hne => by
    obtain ⟨n, rfl⟩ : ∃ m, n = m + 1 := ⟨n - 1, by omega⟩
    have hid := hk _ hs
    have hf := failsS_error (c := .ignoreValue) hs hne
    unfold ignoreValue
    rw [hid]
    cases o <;> first | exact hf | exact absurd rfl h1 | exact absurd rfl h2 | exact absurd (by decide) h
  | _, _, .after h ho, rest, tz, n, hk, hend, hn, hs, hne => skip_scalar_fails h hk hend ho (by omega) hs hne
  | _, _, .arr h, rest, tz, n, hk, hend, hn, hs, hne => by
    simp only [List.length_cons] at hn
    obtain ⟨n, rfl⟩ : ∃ m, n = m + 1 := ⟨n - 1, by omega⟩
    obtain ⟨h1, h2⟩ := Stand.mark (id := .arrs) hs (by decide)
    have := SkipElems.fails h (n := n) hk hend.cons (by omega) h2 (hne.step h1)
    unfold ignoreValue
    rw [h1]; exact this
  | _, _, .obj h, rest, tz, n, hk, hend, hn, hs, hne => by
    simp only [List.length_cons] at hn
    obtain ⟨n, rfl⟩ : ∃ m, n = m + 1 := ⟨n - 1, by omega⟩
    obtain ⟨h1, h2⟩ := Stand.mark (id := .objs) hs (by decide)
    have := SkipMembers.fails h (n := n) hk hend.cons (by omega) h2 (hne.step h1)
    unfold ignoreValue
    rw [h1]; exact this
theorem SkipElems.fails {B : Hist} {o : TId} : {c : ECode} → {ls : List Bytes} → SkipElems o c ls → ∀ {rest : Bytes} {tz : Tz} {n : Nat}, KindAt rest o →
    LastEnd ls rest → 2 * ls.length + 2 ≤ n → Stand tz ls rest → NoErr B tz → FailsS B c rest (ignoreArrLoop n tz)
  | _, _, .elem h h0, rest, tz, n, hk, hend, hn, hs, hne => by
    obtain ⟨n, rfl⟩ : ∃ m, n = m + 1 := ⟨n - 1, by omega⟩
    obtain ⟨tz', h1, h2, h3⟩ := SkipCut.fails (B := B) h (n := n) hk hend (by omega) hs hne
    refine ⟨tz', ?_, h2, h3⟩
    unfold ignoreArrLoop
    rw [if_neg (h.first hk hend hs h0), h1]
  | _, _, .close (j := j) hv hj h1 h2, rest, tz, n, hk, hend, hn, hs, hne => by
    have hl := lv_length hv
    obtain ⟨n, rfl⟩ : ∃ m, n = m + 1 := ⟨n - 1, by omega⟩
    have hid := hv.closer_or hend hs
    unfold ignoreArrLoop
    rw [if_neg (by rw [hid]; exact (headTok_not_sep j).2.1)]
    obtain ⟨x, h3, h4⟩ := skips_last hv (n := n) hk hend hj (by omega) hs
    rw [h3]
    have hid := hk _ h4
    simp only [expect_neg (tz := x) (t := .comma) (by rw [hid]; exact h1), ignoreArrEnd,
      expect_neg (tz := x) (t := .arre) (by rw [hid]; exact h2)]
    exact failsS_error h4 (ignoreValue_noErr h3 hne)
  | _, _, .next (j := j) hv h, rest, tz, n, hk, hend, hn, hs, hne => by
    have hl := lv_length hv
    simp only [List.length_append, List.length_cons] at hn
    obtain ⟨n, rfl⟩ : ∃ m, n = m + 1 := ⟨n - 1, by omega⟩
    have hid := Stand.head hv hs (EndsFor.closer (.inl rfl))
    obtain ⟨x, h1, h2⟩ := skips hv (n := n) (.inl rfl) (by omega) hs
    obtain ⟨h3, h4⟩ := Stand.mark (id := .comma) h2 (by decide)
    have := SkipElems.fails (B := B) h (n := n) hk hend.tail.cons (by omega) h4 ((ignoreValue_noErr h1 hne).step h3)
    unfold ignoreArrLoop
    rw [if_neg (by rw [hid]; exact (headTok_not_sep j).2.1), h1]
    simp only [expect_pos h3]
    exact this
theorem SkipMembers.fails {B : Hist} {o : TId} : {c : ECode} → {ls : List Bytes} → SkipMembers o c ls → ∀ {rest : Bytes} {tz : Tz} {n : Nat},
    KindAt rest o → LastEnd ls rest → 2 * ls.length + 2 ≤ n → Stand tz ls rest → NoErr B tz → FailsS B c rest (ignoreObjLoop n tz)
  | _, _, .name h1 h2, rest, tz, n, hk, hend, hn, hs, hne => by
    obtain ⟨n, rfl⟩ : ∃ m, n = m + 1 := ⟨n - 1, by omega⟩
    have hid := hk _ hs
    unfold ignoreObjLoop
    rw [if_neg (by rw [hid]; exact h1), expect_neg (tz := tz) (t := .string) (by rw [hid]; exact h2)]
    exact failsS_error hs hne
  | _, _, .colon hkey h1, rest, tz, n, hk, hend, hn, hs, hne => by
    obtain ⟨n, rfl⟩ : ∃ m, n = m + 1 := ⟨n - 1, by omega⟩
    obtain ⟨k1, -, k2⟩ := Stand.key hs hkey
    have hid := hk _ k2
    unfold ignoreObjLoop
    rw [if_neg (by rw [k1]; decide)]
    simp only [expect_pos k1, expect_neg (tz := tz.next) (t := .colon) (by rw [hid]; exact h1)]
    exact failsS_error k2 (hne.step k1)
  | _, _, .value hkey h, rest, tz, n, hk, hend, hn, hs, hne => by
    simp only [List.length_cons] at hn
    obtain ⟨n, rfl⟩ : ∃ m, n = m + 1 := ⟨n - 1, by omega⟩
    obtain ⟨k1, -, k2⟩ := Stand.key hs hkey
    obtain ⟨k3, k4⟩ := Stand.mark (id := .colon) k2 (by decide)
    obtain ⟨x, h1, h2, h3⟩ := SkipCut.fails (B := B) h (n := n) hk hend.cons.cons (by omega) k4 ((hne.step k1).step k3)
    refine ⟨x, ?_, h2, h3⟩
    unfold ignoreObjLoop
    rw [if_neg (by rw [k1]; decide)]
    simp only [expect_pos k1, expect_pos k3, h1]
  | _, _, .close hkey hv hj h1 h2, rest, tz, n, hk, hend, hn, hs, hne => by
    simp only [List.length_cons] at hn
    obtain ⟨n, rfl⟩ : ∃ m, n = m + 1 := ⟨n - 1, by omega⟩
    obtain ⟨k1, -, k2⟩ := Stand.key hs hkey
    obtain ⟨k3, k4⟩ := Stand.mark (id := .colon) k2 (by decide)
    unfold ignoreObjLoop
    rw [if_neg (by rw [k1]; decide)]
    simp only [expect_pos k1, expect_pos k3]
    obtain ⟨x, h3, h4⟩ := skips_last hv (n := n) hk hend.cons.cons hj (by omega) k4
    rw [h3]
    have hid := hk _ h4
    simp only [expect_neg (tz := x) (t := .comma) (by rw [hid]; exact h1), ignoreObjEnd,
      expect_neg (tz := x) (t := .obje) (by rw [hid]; exact h2)]
    exact failsS_error h4 (ignoreValue_noErr h3 ((hne.step k1).step k3))
  | _, _, .next hkey hv h, rest, tz, n, hk, hend, hn, hs, hne => by
    simp only [List.length_append, List.length_cons] at hn
    obtain ⟨n, rfl⟩ : ∃ m, n = m + 1 := ⟨n - 1, by omega⟩
    obtain ⟨k1, -, k2⟩ := Stand.key hs hkey
    obtain ⟨k3, k4⟩ := Stand.mark (id := .colon) k2 (by decide)
    obtain ⟨x, h1, h2⟩ := skips hv (n := n) (.inl rfl) (by omega) k4
    obtain ⟨h3, h4⟩ := Stand.mark (id := .comma) h2 (by decide)
    have := SkipMembers.fails (B := B) h (n := n) hk hend.cons.cons.tail.cons (by omega) h4 ((ignoreValue_noErr h1 ((hne.step k1).step k3)).step h3)
    unfold ignoreObjLoop
    rw [if_neg (by rw [k1]; decide)]
    simp only [expect_pos k1, expect_pos k3, h1, expect_pos h3]
    exact this
end


/-- The element reader gives up on the cut documents up to a size. -/
def ElemFails {α : Type} (B : Hist) (N : Nat) (cut : TId → ECode → List Bytes → Prop) (rd : Tz → Res α) : Prop :=
  ∀ (o : TId) (c : ECode) (ls : List Bytes) (rest : Bytes) (tz : Tz), cut o c ls → ls.length ≤ N → KindAt rest o → LastEnd ls rest →
    Stand tz ls rest → NoErr B tz → ∃ x, Fails B c x rest (rd tz)

theorem readArrLoop_fails {α : Type} {B : Hist} {N : Nat} {P : J → List Bytes → Prop} {f : J → RC × α}
    {cut : TId → ECode → List Bytes → Prop} {rd : Tz → Res α} (hrd : ElemTakes N P f rd) (hcut : ElemFails B N cut rd)
    (hP : ∀ j a, P j a → ∃ s, Lv s j a) (hno : ∀ tz, NoErr B tz → EOk B (rd tz))
    (hnil : ∀ tz, tz.cur.id = .nil → ∃ x, rd tz = (.nil, tz, x)) {v v' : List α} {o : TId} {c : ECode} {ls : List Bytes}
    (h : ElemsCut P f cut v o c ls v') : ∀ {rest : Bytes} {m : Nat} {tz : Tz}, ls.length ≤ N → ls.length + 1 ≤ m → KindAt rest o →
      LastEnd ls rest → Stand tz ls rest → NoErr B tz → Fails B c v' rest (readArrLoop rd m tz v) := by
  induction h with
  | @elem v o c ls hc =>
    intro rest m tz hN hm hk hend hs hne
    obtain ⟨m, rfl⟩ : ∃ k, m = k + 1 := ⟨m - 1, by omega⟩
    obtain ⟨x, tz', h1, h2, h3⟩ := hcut _ _ _ _ _ hc hN hk hend hs hne
    refine ⟨tz', ?_, h2, h3⟩
    unfold readArrLoop
    rw [h1]
  | @null v =>
    intro rest m tz hN hm hk hend hs hne
    obtain ⟨m, rfl⟩ : ∃ k, m = k + 1 := ⟨m - 1, by omega⟩
    have hid := hk _ hs
    obtain ⟨x, h1⟩ := hnil tz hid
    unfold readArrLoop
    rw [h1]
    simp only [expect_neg (tz := tz) (t := .comma) (by rw [hid]; decide), expect_neg (tz := tz) (t := .arre) (by rw [hid]; decide)]
    exact fails_error hs hne
  | @close v o j a x hp hf h1 h2 =>
    intro rest m tz hN hm hk hend hs hne
    obtain ⟨m, rfl⟩ : ∃ k, m = k + 1 := ⟨m - 1, by omega⟩
    obtain ⟨s, hl⟩ := hP _ _ hp
    have hT := hrd j a [] rest tz hp hN (hl.ends hend) (by simpa using hs)
    rw [hf] at hT
    obtain ⟨y, h3, h4⟩ := hT.1 rfl
    have hid := hk _ h4
    have hn := (hno tz hne).2
    rw [h3] at hn
    unfold readArrLoop
    rw [h3]
    simp only [expect_neg (tz := y) (t := .comma) (by rw [hid]; exact h1), expect_neg (tz := y) (t := .arre) (by rw [hid]; exact h2),
      if_true]
    exact fails_error h4 (hn (by simp))
  | @next v v' o c j a ls x hp hf hr ih =>
    intro rest m tz hN hm hk hend hs hne
    simp only [List.length_append, List.length_cons] at hN hm
    obtain ⟨m, rfl⟩ : ∃ k, m = k + 1 := ⟨m - 1, by omega⟩
    have hT := hrd j a (b!"," :: ls) rest tz hp (by omega) (EndsFor.closer (.inl rfl)) hs
    rw [hf] at hT
    obtain ⟨y, h3, h4⟩ := hT.1 rfl
    obtain ⟨h5, h6⟩ := Stand.mark (id := .comma) h4 (by decide)
    have hn := (hno tz hne).2
    rw [h3] at hn
    have := ih (m := m) (by omega) (by omega) hk hend.tail.cons h6 ((hn (by simp)).step h5)
    unfold readArrLoop
    rw [h3]
    simp only [expect_pos h5, if_true]
    exact this

theorem readArr_fails {α : Type} {B : Hist} {N n : Nat} {P : J → List Bytes → Prop} {f : J → RC × α}
    {cut : TId → ECode → List Bytes → Prop} {rd : Tz → Res α} (hrd : ElemTakes N P f rd) (hcut : ElemFails B N cut rd)
    (hP : ∀ j a, P j a → ∃ s, Lv s j a) (hno : ∀ tz, NoErr B tz → EOk B (rd tz))
    (hnil : ∀ tz, tz.cur.id = .nil → ∃ x, rd tz = (.nil, tz, x))
    (hfirst : ∀ o c ls rest tz, cut o c ls → (ls = [] → o ≠ .arre) → KindAt rest o → Stand tz ls rest → tz.cur.id ≠ .arre)
    {v v' : List α} {o : TId} {c : ECode} {ls rest} {tz : Tz}
    (h : (ls = [] ∧ o ≠ .arrs ∧ o ≠ .nil ∧ c = .invalidArray ∧ v' = v) ∨
      ∃ inner, ls = b!"[" :: inner ∧ (inner = [] → o ≠ .arre) ∧ ElemsCut P f cut v o c inner v')
    (hN : ls.length ≤ N) (hn : ls.length ≤ n) (hk : KindAt rest o) (hend : LastEnd ls rest) (hs : Stand tz ls rest) (hne : NoErr B tz) :
    Fails B c v' rest (readArr rd n tz v) := by
  unfold readArr
  rcases h with ⟨rfl, h1, h2, rfl, rfl⟩ | ⟨inner, rfl, h1, h2⟩
  · have hid := hk _ hs
    rw [if_neg (by rw [hid]; exact h2)]
    simp only [expect_neg (tz := tz) (t := .arrs) (by rw [hid]; exact h1)]
    exact fails_error hs hne
  · simp only [List.length_cons] at hN hn
    obtain ⟨h3, h4⟩ := Stand.mark (id := .arrs) hs (by decide)
    have h5 : tz.next.cur.id ≠ .arre := by
      cases h2 with
      | elem hc => exact hfirst _ _ _ _ _ hc h1 hk h4
      | null => rw [hk _ h4]; decide
      | close hp _ _ _ =>
        obtain ⟨s, hl⟩ := hP _ _ hp
        rw [hl.closer_or hend.cons h4]
        exact (headTok_not_sep _).2.1
      | next hp _ _ =>
        obtain ⟨s, hl⟩ := hP _ _ hp
        rw [Stand.head hl h4 (EndsFor.closer (.inl rfl))]
        exact (headTok_not_sep _).2.1
    have := readArrLoop_fails hrd hcut hP hno hnil h2 (m := n) (by omega) (by omega) hk hend.cons h4 (hne.step h3)
    rw [if_neg (by rw [h3]; decide)]
    simp only [expect_pos h3, expect_neg h5]
    exact this

/-- The field reader gives up on the cut documents up to a size, or leaves them to be skipped. -/
def MembFails {α : Type} (B : Hist) (N : Nat) (cut : Bytes → α → TId → ECode → List Bytes → α → Prop) (rf : Bytes → Tz → α → Res α) : Prop :=
  ∀ (k : Bytes) (v v' : α) (o : TId) (c : ECode) (ls : List Bytes) (rest : Bytes) (tz : Tz), cut k v o c ls v' → ls.length ≤ N →
    KindAt rest o → LastEnd ls rest → Stand tz ls rest → NoErr B tz →
    Fails B c v' rest (rf k tz v) ∨ (rf k tz v = (.nil, tz, v') ∧ SkipCut o c ls)

theorem Lv.single {s : Bool} {j : J} {a : List Bytes} (h : Lv s j a) (hj : j.isScalar = true) : ∃ l, a = [l] ∧ ScalarOf j l := by
  cases h with
  | tok hs => exact ⟨_, rfl, hs⟩
  | _ => simp [J.isScalar] at hj

theorem readObjLoop_fails {α : Type} {B : Hist} {N : Nat} {P : Bytes → J → List Bytes → Prop} {f : Bytes → J → α → RC × α}
    {cut : Bytes → α → TId → ECode → List Bytes → α → Prop} {rf : Bytes → Tz → α → Res α} (hrf : MembTakes N P f rf)
    (hcut : MembFails B N cut rf) (hP : ∀ k j a, P k j a → ∃ s, Lv s j a) (hno : ∀ nm tz v, NoErr B tz → EOk B (rf nm tz v))
    {v v' : α} {o : TId} {c : ECode} {ls : List Bytes} (h : MembersCut P f cut v o c ls v') :
    ∀ {rest : Bytes} {m : Nat} {tz : Tz}, ls.length ≤ N → 2 * ls.length + 1 ≤ m → KindAt rest o → LastEnd ls rest → Stand tz ls rest →
      NoErr B tz → Fails B c v' rest (readObjLoop rf m tz v) := by
  induction h with
  | @name v o h1 =>
    intro rest m tz hN hm hk hend hs hne
    obtain ⟨m, rfl⟩ : ∃ k, m = k + 1 := ⟨m - 1, by omega⟩
    have hid := hk _ hs
    unfold readObjLoop
    simp only [expect_neg (tz := tz) (t := .string) (by rw [hid]; exact h1)]
    exact fails_error hs hne
  | @colon v o k l hkey h1 =>
    intro rest m tz hN hm hk hend hs hne
    obtain ⟨m, rfl⟩ : ∃ k, m = k + 1 := ⟨m - 1, by omega⟩
    obtain ⟨k1, k0, k2⟩ := Stand.key hs hkey
    have hid := hk _ k2
    unfold readObjLoop
    simp only [expect_pos k1, expect_neg (tz := tz.next) (t := .colon) (by rw [hid]; exact h1)]
    exact fails_error k2 (hne.step k1)
  | @value v v' o c k l ls hkey hc =>
    intro rest m tz hN hm hk hend hs hne
    simp only [List.length_cons] at hN hm
    obtain ⟨m, rfl⟩ : ∃ k, m = k + 1 := ⟨m - 1, by omega⟩
    obtain ⟨k1, k0, k2⟩ := Stand.key hs hkey
    obtain ⟨k3, k4⟩ := Stand.mark (id := .colon) k2 (by decide)
    unfold readObjLoop
    simp only [k0, expect_pos k1, expect_pos k3]
    rcases hcut _ _ _ _ _ _ _ _ hc (by omega) hk hend.cons.cons k4 ((hne.step k1).step k3) with ⟨x, h1, h2, h3⟩ | ⟨h1, h2⟩
    · rw [h1]; exact ⟨x, rfl, h2, h3⟩
    · rw [h1]
      obtain ⟨x, h3, h4, h5⟩ := h2.fails (B := B) (n := m) hk hend.cons.cons (by omega) k4 ((hne.step k1).step k3)
      simp only [h3]
      exact ⟨x, rfl, h4, h5⟩
  | @last v v' o k l j a hkey hp hf hj ho =>
    intro rest m tz hN hm hk hend hs hne
    simp only [List.length_cons] at hN hm
    obtain ⟨m, rfl⟩ : ∃ k, m = k + 1 := ⟨m - 1, by omega⟩
    obtain ⟨k1, k0, k2⟩ := Stand.key hs hkey
    obtain ⟨k3, k4⟩ := Stand.mark (id := .colon) k2 (by decide)
    obtain ⟨s, hl⟩ := hP _ _ _ hp
    have hT := hrf k j a [] rest _ v hp (by omega) (hl.ends hend.cons.cons) (by simpa using k4)
    rw [hf] at hT
    have h1 := hT.2 rfl
    obtain ⟨l', rfl, hsc⟩ := hl.single hj
    obtain ⟨x, h3, h4, h5⟩ := skip_scalar_fails (B := B) (n := m) hsc hk hend.cons.cons ho (by simp at hm; omega) k4 ((hne.step k1).step k3)
    refine ⟨x, ?_, h4, h5⟩
    unfold readObjLoop
    simp only [k0, expect_pos k1, expect_pos k3, h1, h3]
  | @close v v' o rc k l j a hkey hp hf hrc hj h1 h2 =>
    intro rest m tz hN hm hk hend hs hne
    simp only [List.length_cons] at hN hm
    obtain ⟨m, rfl⟩ : ∃ k, m = k + 1 := ⟨m - 1, by omega⟩
    obtain ⟨k1, k0, k2⟩ := Stand.key hs hkey
    obtain ⟨k3, k4⟩ := Stand.mark (id := .colon) k2 (by decide)
    obtain ⟨s, hl⟩ := hP _ _ _ hp
    have hT := hrf k j a [] rest _ v hp (by omega) (hl.ends hend.cons.cons) (by simpa using k4)
    rw [hf] at hT
    unfold readObjLoop
    simp only [k0, expect_pos k1, expect_pos k3]
    rcases hrc with rfl | rfl
    · obtain ⟨y, h3, h4⟩ := hT.1 rfl
      have hid := hk _ h4
      have hn := (hno k tz.next.next v ((hne.step k1).step k3)).2
      rw [h3] at hn
      simp only [h3, objStep, expect_neg (tz := y) (t := .comma) (by rw [hid]; exact h1),
        expect_neg (tz := y) (t := .obje) (by rw [hid]; exact h2)]
      exact fails_error h4 (hn (by simp))
    · have h3 := hT.2 rfl
      obtain ⟨y, h4, h5⟩ := skips_last hl (n := m) hk hend.cons.cons (hj rfl) (by omega) k4
      have hid := hk _ h5
      simp only [h3, h4, objStep, expect_neg (tz := y) (t := .comma) (by rw [hid]; exact h1),
        expect_neg (tz := y) (t := .obje) (by rw [hid]; exact h2)]
      exact fails_error h5 (ignoreValue_noErr h4 ((hne.step k1).step k3))
  | @next v v1 v' o c rc k l j a ls hkey hp hf hrc hr ih =>
    intro rest m tz hN hm hk hend hs hne
    simp only [List.length_cons, List.length_append] at hN hm
    obtain ⟨m, rfl⟩ : ∃ k, m = k + 1 := ⟨m - 1, by omega⟩
    obtain ⟨k1, k0, k2⟩ := Stand.key hs hkey
    obtain ⟨k3, k4⟩ := Stand.mark (id := .colon) k2 (by decide)
    obtain ⟨s, hl⟩ := hP _ _ _ hp
    have hT := hrf k j a (b!"," :: ls) rest _ v hp (by omega) (EndsFor.closer (.inl rfl)) k4
    rw [hf] at hT
    unfold readObjLoop
    simp only [k0, expect_pos k1, expect_pos k3]
    rcases hrc with rfl | rfl
    · obtain ⟨y, h3, h4⟩ := hT.1 rfl
      obtain ⟨h5, h6⟩ := Stand.mark (id := .comma) h4 (by decide)
      have hn := (hno k tz.next.next v ((hne.step k1).step k3)).2
      rw [h3] at hn
      simp only [h3, objStep, expect_pos h5]
      exact ih (by omega) (by omega) hk hend.cons.cons.tail.cons h6 ((hn (by simp)).step h5)
    · have h3 := hT.2 rfl
      obtain ⟨y, h4, h5⟩ := skips hl (n := m) (.inl rfl) (by omega) k4
      obtain ⟨h6, h7⟩ := Stand.mark (id := .comma) h5 (by decide)
      simp only [h3, h4, objStep, expect_pos h6]
      exact ih (by omega) (by omega) hk hend.cons.cons.tail.cons h7 ((ignoreValue_noErr h4 ((hne.step k1).step k3)).step h6)

theorem readObj_fails {α : Type} {B : Hist} {N n : Nat} {P : Bytes → J → List Bytes → Prop} {f : Bytes → J → α → RC × α}
    {cut : Bytes → α → TId → ECode → List Bytes → α → Prop} {rf : Bytes → Tz → α → Res α} (hrf : MembTakes N P f rf)
    (hcut : MembFails B N cut rf) (hP : ∀ k j a, P k j a → ∃ s, Lv s j a) (hno : ∀ nm tz v, NoErr B tz → EOk B (rf nm tz v))
    {v v' : α} {o : TId} {c : ECode} {ls : List Bytes} {rest : Bytes} {tz : Tz}
    (h : (ls = [] ∧ o ≠ .objs ∧ o ≠ .nil ∧ c = .invalidStart ∧ v' = v) ∨
      ∃ inner, ls = b!"{" :: inner ∧ (inner = [] → o ≠ .obje) ∧ MembersCut P f cut v o c inner v')
    (hN : ls.length ≤ N) (hn : 2 * ls.length ≤ n) (hk : KindAt rest o) (hend : LastEnd ls rest) (hs : Stand tz ls rest)
    (hne : NoErr B tz) : Fails B c v' rest (readObj rf n tz v) := by
  unfold readObj
  rcases h with ⟨rfl, h1, h2, rfl, rfl⟩ | ⟨inner, rfl, h1, h2⟩
  · have hid := hk _ hs
    rw [if_neg (by rw [hid]; exact h2)]
    simp only [expect_neg (tz := tz) (t := .objs) (by rw [hid]; exact h1)]
    exact fails_error hs hne
  · simp only [List.length_cons] at hN hn
    obtain ⟨h3, h4⟩ := Stand.mark (id := .objs) hs (by decide)
    have h5 : tz.next.cur.id ≠ .obje := by
      cases h2 with
      | name _ => rw [hk _ h4]; exact h1 rfl
      | colon hk' _ => rw [(Stand.key h4 hk').1]; decide
      | value hk' _ => rw [(Stand.key h4 hk').1]; decide
      | last hk' => rw [(Stand.key h4 hk').1]; decide
      | close hk' => rw [(Stand.key h4 hk').1]; decide
      | next hk' => rw [(Stand.key h4 hk').1]; decide
    have := readObjLoop_fails hrf hcut hP hno h2 (m := n) (by omega) (by omega) hk hend.cons h4 (hne.step h3)
    rw [if_neg (by rw [h3]; decide)]
    simp only [expect_pos h3, expect_neg h5]
    exact this

/-- A cut value begins with an opening bracket, or is nothing at all. -/
theorem Cut.first {t : Ty} {v v' : t.Den} {o : TId} {c : ECode} {ls : List Bytes} (h : Cut t v o c ls v') :
    ls = [] ∨ (∃ r, ls = b!"[" :: r) ∨ ∃ r, ls = b!"{" :: r := by
  cases t with
  | num p => exact .inl h.1
  | raw p => exact .inl h.1
  | str => exact .inl h.1
  | bytes => exact .inl h.1
  | rep t =>
    unfold Cut at h
    rcases h with h | ⟨r, h, -⟩
    · exact .inl h.1
    · exact .inr (.inl ⟨r, h⟩)
  | msg obf fs =>
    unfold Cut at h
    rcases h with h | ⟨r, h, -⟩
    · exact .inl h.1
    · exact .inr (.inr ⟨r, h⟩)

theorem Prim.read_fails {B : Hist} (p : Prim) {rest : Bytes} {tz : Tz} {o : TId} (v : p.Den) (h1 : o ∉ p.tokens) (h2 : o ≠ .nil)
    (hk : KindAt rest o) (hs : Stand tz [] rest) (hne : NoErr B tz) : Fails B p.complaint v rest (p.read tz v) := by
  have hid := hk _ hs
  cases p with
  | int k =>
    simp only [Prim.read, hid, if_neg h2]
    rw [if_pos (by simpa [Prim.tokens] using h1)]
    exact fails_error hs hne
  | flt k =>
    simp only [Prim.read, hid, if_neg h2]
    rw [if_pos (by simpa [Prim.tokens] using h1)]
    exact fails_error hs hne
  | bool =>
    simp only [Prim.read, hid, if_neg h2]
    rw [if_pos (by simpa [Prim.tokens] using h1)]
    exact fails_error hs hne

mutual
/-- **Refusal**: a cut document is refused, with the prescribed code and object. -/
theorem Cut.fails {B : Hist} : (t : Ty) → (t.NoBytes ∨ B.Notes) → ∀ {n : Nat} {v v' : t.Den} {o : TId} {c : ECode} {ls : List Bytes}
    {rest : Bytes} {tz : Tz}, Cut t v o c ls v' → 2 * ls.length ≤ n → KindAt rest o → LastEnd ls rest → Stand tz ls rest →
    NoErr B tz → Fails B c v' rest (t.read n tz v)
  | .num p, _, n, v, v', o, c, ls, rest, tz, h, hn, hk, hend, hs, hne => by
    obtain ⟨rfl, h1, h2, rfl, rfl⟩ := h
    obtain ⟨x, h3, h4, h5⟩ := Prim.read_fails (B := B) p p.zero h1 h2 hk hs hne
    refine ⟨x, ?_, h4, h5⟩
    simp only [Ty.read, NumField.read, h3]
    rfl
  | .raw p, _, n, v, v', o, c, ls, rest, tz, h, hn, hk, hend, hs, hne => by
    obtain ⟨rfl, h1, h2, rfl, rfl⟩ := h
    exact Prim.read_fails (B := B) p v' h1 h2 hk hs hne
  | .str, _, n, v, v', o, c, ls, rest, tz, h, hn, hk, hend, hs, hne => by
    obtain ⟨rfl, h1, h2, rfl, rfl⟩ := h
    have hid := hk _ hs
    obtain ⟨x, h3, h4, h5⟩ := fails_error (B := B) (c := .invalidString) (v := ([] : Bytes)) hs hne
    refine ⟨x, ?_, h4, h5⟩
    have he : stringRead tz [] = (.error, x, []) := by
      unfold stringRead
      rw [if_neg (by rw [hid]; exact h2)]
      simp only [expect_neg (tz := tz) (t := .string) (by rw [hid]; exact h1)]
      exact h3
    simp only [Ty.read, StrField.read, he]
    rfl
  | .bytes, _, n, v, v', o, c, ls, rest, tz, h, hn, hk, hend, hs, hne => by
    obtain ⟨rfl, h1, h2, rfl, rfl⟩ := h
    have hid := hk _ hs
    simp only [Ty.read, bytesRead, hid, if_neg h2]
    rw [if_pos h1]
    exact fails_error hs hne
  | .rep t, hB, n, v, v', o, c, ls, rest, tz, h, hn, hk, hend, hs, hne => by
    have hB' : t.NoBytes ∨ B.Notes := hB.imp_left (by simp [Ty.NoBytes])
    have hE : ElemTakes ls.length (Reads t) (fun j => t.absorb j t.new) (fun tz => t.read n tz t.new) := by
      intro j' a' us' rest' tz' h' hl' he' hs'
      exact Ty.read_takes t n t.new h' (by omega) he' hs'
    have hC : ElemFails B ls.length (fun o c ls => ∃ x, Cut t t.new o c ls x) (fun tz => t.read n tz t.new) := by
      rintro o' c' ls' rest' tz' ⟨x, hx⟩ hl' hk' he' hs' hn'
      exact ⟨x, Cut.fails t hB' hx (by omega) hk' he' hs' hn'⟩
    unfold Cut at h
    simp only [Ty.read]
    refine readArr_fails hE hC (fun _ _ h => ⟨_, Reads.lv t h⟩) (fun tz h => Ty.read_eok t hB' n h t.new)
      (fun tz hid => ⟨(t.read n tz t.new).2.2, ?_⟩) ?_ h (Nat.le_refl _) (by omega) hk hend hs hne
    · exact Prod.ext ((Ty.read_nil t n tz t.new).2 hid) (Prod.ext (Ty.read_nil_tz t n tz t.new hid) rfl)
    · rintro o' c' ls' rest' tz' ⟨x, hx⟩ h0 hk' hs'
      rcases hx.first with rfl | ⟨r, rfl⟩ | ⟨r, rfl⟩
      · rw [hk' _ hs']; exact h0 rfl
      · rw [(Stand.mark (id := .arrs) hs' (by decide)).1]; decide
      · rw [(Stand.mark (id := .objs) hs' (by decide)).1]; decide
  | .msg obf fs, hB, n, v, v', o, c, ls, rest, tz, h, hn, hk, hend, hs, hne => by
    have hB' : fs.NoBytes ∨ B.Notes := hB.imp_left (by simp [Ty.NoBytes])
    have hM : MembTakes ls.length (ReadsKey obf fs)
        (fun k j (v : fs.Den) => match indexOf obf fs k with | none => (.nil, v) | some i => fs.absorbAt i j v)
        (fun name tz v => match indexOf obf fs name with | none => (.nil, tz, v) | some i => fs.readAt i n tz v) := by
      intro k j' a' us' rest' tz' v' h' hl' he' hs'
      unfold ReadsKey at h'
      simp only
      cases hi : indexOf obf fs k with
      | none => exact takes_nil rfl
      | some i => rw [hi] at h'; exact Fields.readAt_takes fs i n v' h' (by omega) he' hs'
    have hC : MembFails B ls.length (fun k (v : fs.Den) o c ls v' => match indexOf obf fs k with
          | none => SkipCut o c ls ∧ v' = v
          | some i => CutAt fs i v o c ls v')
        (fun name tz v => match indexOf obf fs name with | none => (.nil, tz, v) | some i => fs.readAt i n tz v) := by
      intro k v1 v2 o' c' ls' rest' tz' h' hl' hk' he' hs' hn'
      simp only at h' ⊢
      cases hi : indexOf obf fs k with
      | none => rw [hi] at h'; obtain ⟨h1, rfl⟩ := h'; exact .inr ⟨rfl, h1⟩
      | some i => rw [hi] at h'; exact CutAt.fails fs hB' i h' (by omega) hk' he' hs' hn'
    unfold Cut at h
    simp only [Ty.read]
    exact readObj_fails hM hC (readsKey_lv obf fs) (fun nm tz v h => by
      cases indexOf obf fs nm with
      | none => exact eok_of (by decide) h _
      | some i => exact Fields.readAt_eok fs hB' i n h v) h (Nat.le_refl _) hn hk hend hs hne
theorem CutAt.fails {B : Hist} : (fs : Fields) → (fs.NoBytes ∨ B.Notes) → (i : Nat) → ∀ {n : Nat} {v v' : fs.Den} {o : TId} {c : ECode}
    {ls : List Bytes} {rest : Bytes} {tz : Tz}, CutAt fs i v o c ls v' → 2 * ls.length ≤ n → KindAt rest o → LastEnd ls rest →
    Stand tz ls rest → NoErr B tz →
    Fails B c v' rest (fs.readAt i n tz v) ∨ (fs.readAt i n tz v = (.nil, tz, v') ∧ SkipCut o c ls)
  | .nil, _, i, n, v, v', o, c, ls, rest, tz, h, hn, hk, hend, hs, hne => by
    unfold CutAt at h
    obtain ⟨h1, rfl⟩ := h
    exact .inr ⟨rfl, h1⟩
  | .cons f t rst, hB, i, n, v, v', o, c, ls, rest, tz, h, hn, hk, hend, hs, hne => by
    have hb1 : t.NoBytes ∨ B.Notes := hB.imp_left (fun h => by unfold Fields.NoBytes at h; exact h.1)
    have hb2 : rst.NoBytes ∨ B.Notes := hB.imp_left (fun h => by unfold Fields.NoBytes at h; exact h.2)
    obtain ⟨va, vb⟩ := v
    obtain ⟨wa, wb⟩ := v'
    unfold CutAt at h
    unfold Fields.readAt
    have lift : ∀ {i'}, wa = va → CutAt rst i' vb o c ls wb →
        Fails B c (wa, wb) rest ((rst.readAt i' n tz vb).1, (rst.readAt i' n tz vb).2.1, (va, (rst.readAt i' n tz vb).2.2)) ∨
        (((rst.readAt i' n tz vb).1, (rst.readAt i' n tz vb).2.1, (va, (rst.readAt i' n tz vb).2.2)) = (.nil, tz, (wa, wb)) ∧
          SkipCut o c ls) := by
      intro i' hw h'
      rw [hw]
      rcases CutAt.fails rst hb2 i' h' hn hk hend hs hne with ⟨x, h1, h2, h3⟩ | ⟨h1, h3⟩
      · rw [h1]; exact .inl ⟨x, rfl, h2, h3⟩
      · rw [h1]; exact .inr ⟨rfl, h3⟩
    by_cases hf : f.transient = true
    · simp only [hf, if_true] at h ⊢
      exact lift h.1 h.2
    · simp only [Bool.not_eq_true] at hf
      simp only [hf, Bool.false_eq_true, if_false] at h ⊢
      cases i with
      | zero =>
        obtain ⟨h0, h⟩ := h
        have h0 : wb = vb := h0
        subst h0
        obtain ⟨x, h1, h2, h3⟩ := Cut.fails t hb1 h hn hk hend hs hne
        refine .inl ⟨x, ?_, h2, h3⟩
        simp only [h1]
      | succ i => exact lift h.1 h.2
end

end PG
