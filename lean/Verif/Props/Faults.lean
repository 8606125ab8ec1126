import Verif.Proofs.Blot
import Verif.Props.Shape
/-
C63: a refused document is completely explained: what was taken, what stands in the way, the code, the position and what
has become of the object.
-/
set_option autoImplicit false
namespace PG
open IStream

theorem deserialize_error {t : Ty} {input : Bytes} {p : Params} {v : t.Den} {r : DRes t.Den}
    (h : deserialize t input (some p) v = some r) (hr : r.ret = false) (hc : r.code ≠ some .ok) :
    (t.read (fuelFor input) (Tz.open' (IStream.open' input) {}) v).1 = .error ∧
    r.params = some { p with err := (t.read (fuelFor input) (Tz.open' (IStream.open' input) {}) v).2.1.err } := by
  have h21 := ((C21_code_agrees_partial t input p v r h).2.1 hr).1 hc
  have hnil := Ty.read_nil t (fuelFor input) (Tz.open' (IStream.open' input) {}) v
  unfold deserialize deserializeFrom at h
  have hce : (ctxParams (some p)).err = {} := rfl
  simp only [hce] at h
  split at h
  · cases h
  · rename_i hf
    injection h with h
    subst h
    cases hrc : (t.read (fuelFor input) (Tz.open' (IStream.open' input) {}) v).1 with
    | ok => rw [hrc] at hr; simp at hr
    | nil => exact absurd (hnil.mp hrc) h21
    | fuel => exact absurd hrc hf
    | error => exact ⟨rfl, by simp [paramsAfter]⟩

/-- The position a failing call reports for what stands before `suf` in `pre ++ suf`: lines and columns are counted from
1; a string has the position 0, 0. -/
def placeOf (k : TId) (pre : Bytes) : Nat × Nat :=
  if k = .string then (0, 0) else (1 + pre.count 10, 1 + (pre.reverse.takeWhile (fun b => b ≠ 10)).length)

/-- The error was left by a string that cannot be base64: its code is PGERR_INVALID_OBJECT, its message "invalid base64 data", and it is reported at the
token behind the string. -/
def Masked (input : Bytes) (e : ErrInfo) : Prop :=
  e.code = .invalidBase64 ∧ ∃ k ls pre suf w, input = pre ++ suf ∧ Blotted ls w (clean pre) ∧ Ws w ∧ Begins k (clean suf) ∧
    (e.line, e.col) = placeOf k pre

/-- The lexemes passed, and the place of the current token. -/
theorem place_cur {input : Bytes} {tz : Tz} {s : IStream} {ls : List Bytes} (h : Cur tz s) (hp : Passed (IStream.open' input) ls s) :
    ∃ pre suf w, input = pre ++ suf ∧ Upto ls w (clean pre) ∧ Ws w ∧ Ended ls (w ++ clean suf) ∧ Begins tz.cur.id (clean suf) ∧
      (tz.cur.line, tz.cur.col) = placeOf tz.cur.id pre := by
  obtain ⟨w, s0, h5, h6, h7, h8⟩ := h.begins
  obtain ⟨-, p0, e1, e2, e3⟩ := skip_adv input 1 1
  obtain ⟨p1, text, f1, f2, f3, f4, f5⟩ := Passed.upto ls hp (skip_norm _ _ _)
  obtain ⟨g0, p2, g1, g2, g3⟩ := h5
  refine ⟨p0 ++ (p1 ++ p2), s0.rest, w, ?_, ?_, h6, ?_, h7, ?_⟩
  · have f1 : (skip input 1 1).rest = p1 ++ s.rest := f1
    conv => lhs; rw [e1, f1, g1]
    simp
  · rw [clean_append, clean_append, e2, f2, g2]
    exact f5 w
  · have := Passed.ended ls hp
    rw [g1, clean_append, g2] at this
    exact this
  · unfold placeOf
    split at h8
    · rename_i hs; rw [if_pos hs, h8.1, h8.2]
    · rename_i hs
      rw [if_neg hs, h8.1, h8.2, ← posFrom_eq, posFrom_append, posFrom_append, e3]
      have f4 : posFrom ((skip input 1 1).line, (skip input 1 1).col) p1 = _ := f4
      rw [f4, g3]

theorem masked_of {input : Bytes} {e : ErrInfo} {tz : Tz}
    (h : (Hist.blots (Tz.open' (IStream.open' input) e) (IStream.open' input)).B tz) : Masked input tz.err := by
  obtain ⟨k, ls, s, -, i, us, l, y, s', -, h1, h2, -, -, h3, h4⟩ := h
  obtain ⟨pre, suf, w, g1, g2, g3, -, g4, g5⟩ := place_cur h3.cur h3.passed
  exact ⟨by rw [h4], _, us, pre, suf, w, g1, ⟨l, h1, h2, g2⟩, g3, g4, by rw [h4]; exact g5⟩

/-- C63.  If `deserialize` fails with an error, then the input has the form `pre ++ suf` where, line feeds aside,
`pre` consists of lexemes `ls` and white space, `suf` begins with a token of kind `k` (or the end, or something that is no
token), and `Cut` -- the grammar of documents that are refused, written down without the readers -- says that reading
the lexemes `ls` into the object stops there; the object is the one `Cut` gives.  The error code is the one `Cut` gives
and the position is that of `suf` (0, 0 if a string stands there), unless the class has `bytes` fields and the input has
an earlier string whose length is no multiple of four: such a string may leave an error that is reported instead. -/
theorem C63_explained (t : Ty) (input : Bytes) (p : Params) (v : t.Den) (r : DRes t.Den)
    (h : deserialize t input (some p) v = some r) (hr : r.ret = false) (hc : r.code ≠ some .ok) :
    ∃ k c ls pre suf w q, input = pre ++ suf ∧ Upto ls w (clean pre) ∧ Ws w ∧ Ended ls (w ++ clean suf) ∧ Begins k (clean suf) ∧
      Cut t v k c ls r.obj ∧ r.params = some q ∧
      ((q.err.code = c ∧ (q.err.line, q.err.col) = placeOf k pre) ∨ (¬ t.NoBytes ∧ Masked input q.err)) := by
  obtain ⟨he, hq⟩ := deserialize_error h hr hc
  have hobj := deserialize_obj h
  have key : ∀ B : Hist, B.K (Tz.open' (IStream.open' input) {}) → (t.NoBytes ∨ B.Notes) →
      (∀ tz, B.B tz → ¬ t.NoBytes ∧ Masked input tz.err) →
      ∃ k c ls pre suf w q, input = pre ++ suf ∧ Upto ls w (clean pre) ∧ Ws w ∧ Ended ls (w ++ clean suf) ∧ Begins k (clean suf) ∧
      Cut t v k c ls r.obj ∧ r.params = some q ∧
      ((q.err.code = c ∧ (q.err.line, q.err.col) = placeOf k pre) ∨ (¬ t.NoBytes ∧ Masked input q.err)) := by
    intro B hK hB hM
    have hbad := Ty.read_bad t hB (fuelFor input) (Tz.open' (IStream.open' input) {}) v (.inl ⟨rfl, hK⟩) he
    have heok := (Ty.read_eok t hB (fuelFor input) (tz := Tz.open' (IStream.open' input) {}) (.inl ⟨rfl, hK⟩) v).1 he
    obtain ⟨s', ls, h1, h2, c, h3, h4⟩ := hbad _ (open_cur _ _)
    obtain ⟨pre, suf, w, g1, g2, g3, g4, g5, g6⟩ := place_cur h1 h2
    refine ⟨_, c, ls, pre, suf, w, _, g1, g2, g3, g4, g5, by rw [hobj]; exact h4, hq, ?_⟩
    rcases h3 with h3 | h3
    · rcases heok.2 with ⟨hl, hcol⟩ | hb
      · refine .inl ⟨h3, ?_⟩
        simp only
        rw [hl, hcol, g6]
      · exact .inr (hM _ hb)
    · exact .inr (hM _ h3)
  by_cases hnb : t.NoBytes
  · exact key Hist.strict trivial (.inl hnb) (fun tz h => h.elim)
  · exact key _ (blots_open input {}) (.inr (Hist.blots_notes _ _)) (fun tz h => ⟨hnb, masked_of h⟩)

theorem upto_append : (ls : List Bytes) → {w bs : Bytes} → Upto ls w bs → (r : Bytes) → Upto ls (w ++ r) (bs ++ r)
  | [], w, bs, h, r => by
    have h : bs = w := h
    subst h; rfl
  | l :: ls, w, bs, h, r => by
    obtain ⟨w', x, rfl, hw, h⟩ := h
    exact ⟨w', x ++ r, by simp, hw, upto_append ls h r⟩

theorem upto_suffix : (ls : List Bytes) → {r bs : Bytes} → Upto ls r bs → ∃ a, bs = a ++ r
  | [], r, bs, h => ⟨[], h⟩
  | l :: ls, r, bs, h => by
    obtain ⟨w', x, rfl, hw, h⟩ := h
    obtain ⟨a, rfl⟩ := upto_suffix ls h
    exact ⟨w' ++ (l ++ a), by simp⟩

theorem KindAt.ws {w rest : Bytes} {k : TId} (h : KindAt rest k) (hw : Ws w) : KindAt (w ++ rest) k := by
  rintro tz ⟨bs, hu, ha⟩
  have hu : bs = w ++ rest := hu
  subst hu
  exact h tz ⟨rest, rfl, ha.dropWs hw⟩

/-- A refused document, for the error code `c`: lexemes, and the place where `Cut` says that reading stops. -/
def Refused (t : Ty) (input : Bytes) (v v' : t.Den) (c : ECode) : Prop :=
  ∃ k ls w rest, Upto ls (w ++ rest) (clean input) ∧ Ws w ∧ Ended ls (w ++ rest) ∧ Begins k rest ∧ Cut t v k c ls v'

/-- No string of the input that leaves an error. -/
def NoBlots (input : Bytes) : Prop := ∀ ls rest, ¬ Blotted ls rest (clean input)

theorem masked_blotted {input : Bytes} {e : ErrInfo} (h : Masked input e) (hb : NoBlots input) : False := by
  obtain ⟨-, k, ls, pre, suf, w, h1, ⟨l, h2, h3, h4⟩, -⟩ := h
  refine hb ls (w ++ clean suf) ⟨l, h2, h3, ?_⟩
  rw [h1, clean_append]
  exact upto_append _ h4 _

theorem refused_fails {t : Ty} {input : Bytes} {v v' : t.Den} {c : ECode} (p : Params) (hx : Refused t input v v' c) :
    ∃ r, deserialize t input (some p) v = some r ∧ r.ret = false ∧ r.code ≠ some .ok ∧ r.obj = v' ∧
      (t.NoBytes ∨ NoBlots input → r.code = some c ∧ c ≠ .ok) := by
  obtain ⟨k, ls, w, rest, h1, h2, h3, h4, h5⟩ := hx
  obtain ⟨a, ha⟩ := upto_suffix ls h1
  have hcl : clean (w ++ rest) = w ++ rest := by
    apply clean_suffix (a := a)
    rw [← ha, clean_clean]
  have hk := (h4.kind (clean_suffix hcl)).ws h2
  let n := 2 * ls.length + 2 * (clean input).length + 2
  have hs : Stand (Tz.open' (IStream.open' (clean input)) {}) ls (w ++ rest) := ⟨clean input, h1, At.open _ _⟩
  have key : ∀ B : Hist, B.K (Tz.open' (IStream.open' (clean input)) {}) → (t.NoBytes ∨ B.Notes) →
      ∃ r, deserialize t (clean input) (some p) v = some r ∧ r.ret = false ∧ r.code ≠ some .ok ∧ r.obj = v' ∧
        ((∀ tz, ¬ B.B tz) → r.code = some c ∧ c ≠ .ok) := by
    intro B hK hB
    obtain ⟨tz', hrd, -, hcode⟩ := Cut.fails (B := B) t hB (n := n) h5 (by omega) hk (h3.last hcl) hs (.inl ⟨rfl, hK⟩)
    have hne : tz'.err.code ≠ .ok := by
      have := ((Ty.read_eok (B := B) t hB n (tz := Tz.open' (IStream.open' (clean input)) {}) (.inl ⟨rfl, hK⟩) v).1
        (by rw [hrd])).1
      rw [hrd] at this
      exact this
    rw [← C20_iteration_bound t (clean input) (some p) v n (by omega)]
    unfold deserializeFrom
    have hce : (ctxParams (some p)).err = {} := rfl
    simp only [hce, hrd]
    refine ⟨_, rfl, rfl, by simpa [DRes.code, paramsAfter] using hne, rfl, fun hno => ?_⟩
    have hcode : tz'.err.code = c := hcode.resolve_right (hno _)
    exact ⟨by simp [DRes.code, paramsAfter, hcode], by rw [← hcode]; exact hne⟩
  have done : ∀ B : Hist, B.K (Tz.open' (IStream.open' (clean input)) {}) → (t.NoBytes ∨ B.Notes) →
      ((t.NoBytes ∨ NoBlots input) → ∀ tz, ¬ B.B tz) →
      ∃ r, deserialize t input (some p) v = some r ∧ r.ret = false ∧ r.code ≠ some .ok ∧ r.obj = v' ∧
        (t.NoBytes ∨ NoBlots input → r.code = some c ∧ c ≠ .ok) := by
    intro B hK hB hno
    obtain ⟨r, hr1, hr2, hr3, hr4, hr5⟩ := key B hK hB
    have := C59_line_feeds_meaningless t input (clean input) (some p) v (clean_clean input).symm
    rw [hr1] at this
    simp only [Option.map_some, Option.map_eq_some_iff] at this
    obtain ⟨r', h6, h7⟩ := this
    simp only [unplaced, Prod.mk.injEq] at h7
    have hcd : r'.code = r.code := h7.2.2
    exact ⟨r', h6, by rw [h7.1]; exact hr2, by rw [hcd]; exact hr3, by rw [h7.2.1]; exact hr4, fun hh => by
      rw [hcd]; exact hr5 (hno hh)⟩
  by_cases hnb : t.NoBytes
  · exact done Hist.strict trivial (.inl hnb) (fun _ tz h => h)
  · refine done _ (blots_open (clean input) {}) (.inr (Hist.blots_notes _ _)) (fun hh tz h => ?_)
    refine masked_blotted (masked_of h) (fun ls rest hx => hh.resolve_left hnb ls rest ?_)
    rw [clean_clean] at hx
    exact hx

/-- C63, exactly: `deserialize` fails with the error code `c` and leaves the object `v'` iff the input, line feeds
aside, begins with lexemes `ls` after which, before a token of kind `k`, `Cut` says that reading stops with that code and
that object.  This holds for classes without `bytes` fields, and for all classes if no string of the input has a length
that is no multiple of four. -/
theorem C63_refused_iff (t : Ty) (input : Bytes) (hb : t.NoBytes ∨ NoBlots input) (p : Params) (v v' : t.Den) (c : ECode) :
    (∃ r, deserialize t input (some p) v = some r ∧ r.ret = false ∧ r.code = some c ∧ c ≠ .ok ∧ r.obj = v') ↔
    ∃ k ls w rest, Upto ls (w ++ rest) (clean input) ∧ Ws w ∧ Ended ls (w ++ rest) ∧ Begins k rest ∧ Cut t v k c ls v' := by
  constructor
  · rintro ⟨r, h, hr, hc, hne, rfl⟩
    obtain ⟨k, c', ls, pre, suf, w, q, h1, h2, h3, h4, h5, h6, h7, h8⟩ :=
      C63_explained t input p v r h hr (by rw [hc]; simpa using hne)
    have h8 : q.err.code = c' := by
      rcases h8 with h8 | ⟨h8, h9⟩
      · exact h8.1
      · exact (masked_blotted h9 (hb.resolve_left h8)).elim
    have hcc : c' = c := by
      rw [DRes.code, h7] at hc
      simp only [Option.map_some, Option.some.injEq] at hc
      rw [← hc, h8]
    subst hcc
    refine ⟨k, ls, w, clean suf, ?_, h3, h4, h5, h6⟩
    rw [h1, clean_append]
    exact upto_append ls h2 _
  · intro hx
    obtain ⟨r, h1, h2, -, h3, h4⟩ := refused_fails p hx
    obtain ⟨h5, h6⟩ := h4 hb
    exact ⟨r, h1, h2, h5, h6, h3⟩

/-- C63, for all classes and inputs: `deserialize` fails with an error and leaves the object `v'` iff the input is a
document that `Cut` describes. -/
theorem C63_refused_any (t : Ty) (input : Bytes) (p : Params) (v v' : t.Den) :
    (∃ r, deserialize t input (some p) v = some r ∧ r.ret = false ∧ r.code ≠ some .ok ∧ r.obj = v') ↔
    ∃ c k ls w rest, Upto ls (w ++ rest) (clean input) ∧ Ws w ∧ Ended ls (w ++ rest) ∧ Begins k rest ∧ Cut t v k c ls v' := by
  constructor
  · rintro ⟨r, h, hr, hc, rfl⟩
    obtain ⟨k, c, ls, pre, suf, w, q, h1, h2, h3, h4, h5, h6, h7, h8⟩ := C63_explained t input p v r h hr hc
    refine ⟨c, k, ls, w, clean suf, ?_, h3, h4, h5, h6⟩
    rw [h1, clean_append]
    exact upto_append ls h2 _
  · rintro ⟨c, hx⟩
    obtain ⟨r, h1, h2, h3, h4, -⟩ := refused_fails p hx
    exact ⟨r, h1, h2, h3, h4⟩

theorem hex4_noLF {h : Bytes} {n : Nat} (hh : Hex4 h n) : ∀ b ∈ h, b ≠ 10 := by
  obtain ⟨a, b, c, d, va, vb, vc, vd, rfl, h1, h2, h3, h4, -⟩ := hh
  have key : ∀ {x : Byte} {n : Nat}, HexDigit x n → x ≠ 10 := by
    rintro x n h rfl
    revert h
    unfold HexDigit
    simp
  simp only [List.mem_cons, List.not_mem_nil, or_false]
  rintro x (rfl | rfl | rfl | rfl)
  · exact key h1
  · exact key h2
  · exact key h3
  · exact key h4

theorem strMeans_noLF {o : Option Nat} {body s : Bytes} (h : StrMeans o body s) : ∀ b ∈ body, b ≠ 10 := by
  induction h with
  | nil => simp
  | raw hb _ ih =>
    intro x hx
    rcases List.mem_cons.mp hx with rfl | hx
    · exact hb.2.1
    · exact ih x hx
  | @esc p e b t c he _ ih =>
    intro x hx
    have hkey : ∀ q ∈ shortEscapes, q.1 ≠ 10 := by decide
    rcases List.mem_cons.mp hx with rfl | hx
    · decide
    · rcases List.mem_cons.mp hx with rfl | hx
      · exact hkey _ he
      · exact ih x hx
  | uni hh _ _ _ ih =>
    intro x hx
    simp only [List.mem_cons, List.mem_append] at hx
    rcases hx with rfl | rfl | hx | hx
    · decide
    · decide
    · exact hex4_noLF hh x hx
    · exact ih x hx
  | high hh _ _ _ ih =>
    intro x hx
    simp only [List.mem_cons, List.mem_append] at hx
    rcases hx with rfl | rfl | hx | hx
    · decide
    · decide
    · exact hex4_noLF hh x hx
    · exact ih x hx
  | low hh _ _ _ ih =>
    intro x hx
    simp only [List.mem_cons, List.mem_append] at hx
    rcases hx with rfl | rfl | hx | hx
    · decide
    · decide
    · exact hex4_noLF hh x hx
    · exact ih x hx

theorem scalarOf_noLF {j : J} {l : Bytes} (h : ScalarOf j l) : ∀ b ∈ l, b ≠ 10 := by
  cases j with
  | null => cases h; decide
  | bool x => cases x <;> cases h <;> decide
  | num n =>
    intro b hb hb'
    have := h.2.2 b hb
    rw [hb'] at this
    exact absurd this (by decide)
  | str s =>
    obtain ⟨body, rfl, hm⟩ := h
    intro b hb
    simp only [List.mem_cons, List.mem_append, List.not_mem_nil, or_false] at hb
    rcases hb with rfl | hb | rfl
    · decide
    · exact strMeans_noLF hm b hb
    · decide
  | arr _ => exact h.elim
  | obj _ => exact h.elim

/-- No lexeme contains a line feed. -/
def NoLF (ls : List Bytes) : Prop := ∀ l ∈ ls, ∀ b ∈ l, b ≠ 10

theorem NoLF.append {a b : List Bytes} (h : NoLF a) (h' : NoLF b) : NoLF (a ++ b) := by
  intro l hl
  rcases List.mem_append.mp hl with hl | hl
  · exact h l hl
  · exact h' l hl

theorem NoLF.cons {a : Bytes} {b : List Bytes} (h : ∀ x ∈ a, x ≠ 10) (h' : NoLF b) : NoLF (a :: b) := by
  intro l hl
  rcases List.mem_cons.mp hl with rfl | hl
  · exact h
  · exact h' l hl

theorem NoLF.nil : NoLF [] := by intro l hl; cases hl

mutual
theorem lv_noLF : {s : Bool} → {j : J} → {a : List Bytes} → Lv s j a → NoLF a
  | _, _, _, .tok h => .cons (scalarOf_noLF h) .nil
  | _, _, _, .arr0 => .cons (by decide) (.cons (by decide) .nil)
  | _, _, _, .arr h => .cons (by decide) (.append (lel_noLF h) (.cons (by decide) .nil))
  | _, _, _, .obj0 => .cons (by decide) (.cons (by decide) .nil)
  | _, _, _, .obj h => .cons (by decide) (.append (lme_noLF h) (.cons (by decide) .nil))
theorem lel_noLF : {s : Bool} → {xs : JL} → {a : List Bytes} → LEl s xs a → NoLF a
  | _, _, _, .one h => lv_noLF h
  | _, _, _, .trail h => .append (lv_noLF h) (.cons (by decide) .nil)
  | _, _, _, .cons h h' => .append (lv_noLF h) (.cons (by decide) (lel_noLF h'))
theorem lme_noLF : {s : Bool} → {ms : JM} → {a : List Bytes} → LMe s ms a → NoLF a
  | _, _, _, .one hk _ h => .cons (scalarOf_noLF hk) (.cons (by decide) (lv_noLF h))
  | _, _, _, .trail hk h => .cons (scalarOf_noLF hk) (.cons (by decide) (.append (lv_noLF h) (.cons (by decide) .nil)))
  | _, _, _, .cons hk _ h h' => .cons (scalarOf_noLF hk) (.cons (by decide) (.append (lv_noLF h) (.cons (by decide) (lme_noLF h'))))
end

theorem spaced_flatten : (us : List Bytes) → {w : Bytes} → Ws w → Spaced us (w ++ us.flatten)
  | [], w, hw => by simpa [Spaced] using hw
  | u :: us, w, hw => ⟨w, us.flatten, by simp, hw, by have := spaced_flatten us (w := []) Ws.nil; simpa using this⟩

theorem upto_spaced : (ls : List Bytes) → {w bs : Bytes} → (us : List Bytes) → Upto ls w bs → Ws w → Spaced (ls ++ us) (bs ++ us.flatten)
  | [], w, bs, us, h, hw => by
    have h : bs = w := h
    subst h; exact spaced_flatten us hw
  | l :: ls, w, bs, us, h, hw => by
    obtain ⟨w', x, rfl, hw', h⟩ := h
    exact ⟨w', x ++ us.flatten, by simp, hw', upto_spaced ls us h hw⟩

/-- C63, errors are not reported late: what stands before the offending token can be continued to a document that is
accepted. -/
theorem C63_not_late (obf : Bool) (fs : Fields) {k : TId} {c : ECode} {ls : List Bytes} {pre w : Bytes} {v v' : (Ty.msg obf fs).Den}
    (h : Cut (.msg obf fs) v k c ls v') (hu : Upto ls w (clean pre)) (hw : Ws w) (params : Option Params) :
    ∃ more r, deserialize (.msg obf fs) (pre ++ more) params v = some r ∧ r.ret = true := by
  obtain ⟨us, j, o, h1, h2⟩ := Cut.viable _ h
  have hcl : clean us.flatten = us.flatten := by
    rw [clean_noLF]
    intro b hb
    obtain ⟨l, hl, hb⟩ := List.mem_flatten.mp hb
    exact lv_noLF (Reads.lv _ h1) l (List.mem_append_right _ hl) b hb
  obtain ⟨r, h3, h4, -⟩ := (C58_accepted_iff obf fs (pre ++ us.flatten) params v o).2
    ⟨j, ls ++ us, clean pre ++ us.flatten, [], by rw [clean_append, hcl]; simp, upto_spaced ls us hu hw, h1, h2⟩
  exact ⟨us.flatten, r, h3, h4⟩

/-- C63, in one piece: an error is reported at the first token that cannot be part of any accepted document.  The text
before it can be continued to an accepted document; but whatever follows, if it begins with a token of the same kind as
the one found there, the result is the same failure: same object and, without `bytes` fields, same code. -/
theorem C63_first_offender (obf : Bool) (fs : Fields) (input : Bytes) (p : Params) (v : (Ty.msg obf fs).Den)
    (r : DRes (Ty.msg obf fs).Den) (h : deserialize (.msg obf fs) input (some p) v = some r) (hr : r.ret = false)
    (hc : r.code ≠ some .ok) :
    ∃ k ls pre suf w, input = pre ++ suf ∧ Upto ls w (clean pre) ∧ Ws w ∧ Ended ls (w ++ clean suf) ∧ Begins k (clean suf) ∧
      (∃ more r', deserialize (.msg obf fs) (pre ++ more) (some p) v = some r' ∧ r'.ret = true) ∧
      (∀ other, Begins k (clean other) → Ended ls (w ++ clean other) →
        ∃ r', deserialize (.msg obf fs) (pre ++ other) (some p) v = some r' ∧ r'.ret = false ∧ r'.obj = r.obj ∧
          r'.code ≠ some .ok ∧ ((Ty.msg obf fs).NoBytes → r'.code = r.code)) := by
  obtain ⟨k, c, ls, pre, suf, w, q, h1, h2, h3, h4, h5, h6, h7, h8⟩ := C63_explained _ input p v r h hr hc
  refine ⟨k, ls, pre, suf, w, h1, h2, h3, h4, h5, C63_not_late obf fs h6 h2 h3 _, fun other ho he => ?_⟩
  obtain ⟨r', g1, g2, g3, g4, g5⟩ := refused_fails (input := pre ++ other) p
    ⟨k, ls, w, clean other, by rw [clean_append]; exact upto_append ls h2 _, h3, he, ho, h6⟩
  refine ⟨r', g1, g2, g4, g3, fun hnb => ?_⟩
  rw [(g5 (.inl hnb)).1, DRes.code, h7, Option.map_some]
  rcases h8 with h8 | h8
  · rw [h8.1]
  · exact absurd hnb h8.1

/-- C22, which token is reported, for all classes: token number `k` of the input, counted from 0, where the reader
stopped; or, if the class has `bytes` fields, the token behind a string whose length is no multiple of four, the reader
having gone on to token number `k`. -/
theorem C22_which_token (t : Ty) (input : Bytes) (p : Params) (v : t.Den) (r : DRes t.Den)
    (h : deserialize t input (some p) v = some r) (hr : r.ret = false) (hc : r.code ≠ some .ok) :
    ∃ q k, r.params = some q ∧
      let token := fun i => ((Tz.open' (IStream.open' input) {}).nth i).cur
      (((t.read (fuelFor input) (Tz.open' (IStream.open' input) {}) v).2.1.cur = token k ∧
          (q.err.line, q.err.col) = ((token k).line, (token k).col)) ∨
       (¬ t.NoBytes ∧ ∃ i, i < k ∧ (t.read (fuelFor input) (Tz.open' (IStream.open' input) {}) v).2.1.cur = token k ∧
          (token i).id = .string ∧ (token i).value.length % 4 ≠ 0 ∧
          q.err = ⟨.invalidBase64, (token (i + 1)).line, (token (i + 1)).col⟩)) := by
  obtain ⟨he, hq⟩ := deserialize_error h hr hc
  have inv : TzInv (fun tz => ∃ k, tz.Same ((Tz.open' (IStream.open' input) {}).nth k)) := {
    next := by
      rintro a ⟨k, h1⟩ - -
      exact ⟨k + 1, h1.next⟩
    error := by
      rintro a ⟨k, h1⟩ c
      exact ⟨k, Tz.same_error h1 c⟩ }
  have hat := inv.read t (fuelFor input) (a := Tz.open' (IStream.open' input) {}) ⟨0, rfl, rfl⟩ v
  by_cases hnb : t.NoBytes
  · have heok := (Ty.read_eok (B := Hist.strict) t (.inl hnb) (fuelFor input) (tz := Tz.open' (IStream.open' input) {})
      (.inl ⟨rfl, trivial⟩) v).1 he
    obtain ⟨k, hk, -⟩ := hat
    obtain ⟨hl, hcol⟩ := heok.2.resolve_right id
    refine ⟨_, k, hq, .inl ⟨hk, ?_⟩⟩
    simp only
    rw [hl, hcol, hk]
  · have heok := (Ty.read_eok t (.inr (Hist.blots_notes _ _)) (fuelFor input) (tz := Tz.open' (IStream.open' input) {})
      (.inl ⟨rfl, blots_open input {}⟩) v).1 he
    rcases heok.2 with ⟨hl, hcol⟩ | ⟨k, ls, s, hw, i, us, l, y, s', h1, -, -, h4, h5, h6, h7⟩
    · obtain ⟨k, hk, -⟩ := hat
      refine ⟨_, k, hq, .inl ⟨hk, ?_⟩⟩
      simp only
      rw [hl, hcol, hk]
    · refine ⟨_, k, hq, .inr ⟨hnb, i, by omega, hw.same.1, h4, h5, ?_⟩⟩
      simp only
      rw [h7, ← h6.same.1]

/-- What reading a text into the address `5, "x"` leaves. -/
def Demo.runAddress (input : Bytes) : Option (Bool × Demo.address.Den × Option (ECode × Nat × Nat)) :=
  (deserialize Demo.address input (some {}) (Demo.anAddress 5 b!"x")).map
    (fun r => (r.ret, r.obj, r.params.map (fun p => (p.err.code, p.err.line, p.err.col))))

/-- The failures in detail, one per clause of `Cut`: the object, the code and the position. -/
theorem C63_examples :
    -- a number of the wrong type is set to zero, a string is emptied
    Demo.runAddress b!"{\"number\":[" = some (false, Demo.anAddress 0 b!"x", some (.invalidNumber, 1, 11)) ∧
    Demo.runAddress b!"{\"street\":1}" = some (false, Demo.anAddress 5 [], some (.invalidString, 1, 11)) ∧
    Demo.runAddress b!"{\"number\":7,1" = some (false, Demo.anAddress 7 b!"x", some (.invalidName, 1, 13)) ∧
    Demo.runAddress b!"{\"number\" 7" = some (false, Demo.anAddress 5 b!"x", some (.invalidSeparator, 1, 11)) ∧
    Demo.runAddress b!"{\"number\":7]" = some (false, Demo.anAddress 7 b!"x", some (.invalidObject, 1, 12)) ∧
    -- a member that is skipped: after a scalar the end of the input is a different error than anything else
    Demo.runAddress b!"{\"z\":7]" = some (false, Demo.anAddress 5 b!"x", some (.invalidObject, 1, 7)) ∧
    Demo.runAddress b!"{\"z\":7" = some (false, Demo.anAddress 5 b!"x", some (.ignoreEnd, 1, 7)) ∧
    Demo.runAddress b!"{\"z\":[7" = some (false, Demo.anAddress 5 b!"x", some (.ignoreEnd, 1, 8)) ∧
    Demo.runAddress b!"{\"z\":[7]" = some (false, Demo.anAddress 5 b!"x", some (.invalidObject, 1, 9)) ∧
    Demo.runAddress b!"7" = some (false, Demo.anAddress 5 b!"x", some (.invalidStart, 1, 1)) := by
  refine ⟨?_, ?_, ?_, ?_, ?_, ?_, ?_, ?_, ?_, ?_⟩ <;> decide +kernel

/-- A malformed `bytes` value is accepted, but the error it leaves is reported when something else fails later on: here
the closing brace is missing in the third line, the report is about the comma in the first. -/
theorem C63_masked_example :
    (deserialize Demo.person b!"{\"blob\":\"abc\"}" (some {}) Demo.person.new).map (fun r => (r.ret, r.code)) =
      some (true, some .ok) ∧
    (deserialize Demo.person b!"{\"blob\":\"abc\",\n\"tags\":[],\n" (some {}) Demo.person.new).map
      (fun r => (r.ret, r.params.map (fun p => (p.err.code, p.err.line, p.err.col)))) =
      some (false, some (.invalidBase64, 1, 14)) ∧
    (deserialize Demo.person b!"{\"blob\":\"abcd\",\n\"tags\":[],\n" (some {}) Demo.person.new).map
      (fun r => (r.ret, r.params.map (fun p => (p.err.code, p.err.line, p.err.col)))) =
      some (false, some (.invalidName, 3, 1)) := by
  refine ⟨?_, ?_, ?_⟩ <;> decide +kernel

/-- The second of these: the error found is masked. -/
example : Masked b!"{\"blob\":\"abc\",\n\"tags\":[],\n" ⟨.invalidBase64, 1, 14⟩ := by
  refine ⟨rfl, .comma, [b!"{", b!"\"blob\"", b!":"], b!"{\"blob\":\"abc\"", b!",\n\"tags\":[],\n", [], rfl, ?_, Ws.nil, ?_, by decide⟩
  · have lit : ∀ s : Bytes, (∀ b ∈ s, wideRaw b) → StrMeans none s s := by
      intro s h
      induction s with
      | nil => exact .nil
      | cons b t ih => exact .raw (h b (by simp)) (ih fun c hc => h c (by simp [hc]))
    refine ⟨b!"\"abc\"", ?_, ⟨b!"abc", ⟨_, rfl, lit _ (by unfold wideRaw; decide)⟩, by decide⟩, ?_⟩
    · intro x hx
      simp only [List.mem_cons, List.not_mem_nil, or_false] at hx
      rcases hx with rfl | rfl | rfl
      · exact .inr (by decide)
      · exact .inl ⟨.str b!"blob", _, rfl, lit _ (by unfold wideRaw; decide)⟩
      · exact .inr (by decide)
    · exact ⟨[], _, rfl, Ws.nil, [], _, rfl, Ws.nil, [], _, rfl, Ws.nil, [], _, rfl, Ws.nil, rfl⟩
  · refine ⟨fun b t h => by cases h; decide, ?_⟩
    rw [if_neg (by decide)]
    exact ⟨_, rfl⟩

/-- An array keeps the elements before the one that is refused; `null` is refused as an element. -/
theorem C63_null_element :
    (deserialize Demo.tagged b!"{\"tags\":[\"a\",null]}" (some {}) (Demo.tags [])).map
      (fun r => (r.ret, r.obj, r.code)) = some (false, Demo.tags [b!"a"], some .invalidArray) := by decide +kernel

theorem cut_msg {obf : Bool} {fs : Fields} {v v' : fs.Den} {k : TId} {c : ECode} {inner : List Bytes} (h0 : inner ≠ [])
    (h : MembersCut (ReadsKey obf fs) (fun k j v => match indexOf obf fs k with
          | none => (.nil, v)
          | some i => fs.absorbAt i j v)
        (fun k v o c ls v' => match indexOf obf fs k with
          | none => SkipCut o c ls ∧ v' = v
          | some i => CutAt fs i v o c ls v') v k c inner v') : Cut (.msg obf fs) v k c (b!"{" :: inner) v' := by
  unfold Cut
  exact .inr ⟨inner, rfl, fun h => absurd h h0, h⟩

/-- The right hand side of `C63_refused_iff` is met by ` {"number" :7 ]`. -/
example : ∃ k ls w rest, Upto ls (w ++ rest) (clean b!" {\"number\" :7 ]") ∧ Ws w ∧ Ended ls (w ++ rest) ∧ Begins k rest ∧
    Cut Demo.address (Demo.anAddress 5 b!"x") k .invalidObject ls (Demo.anAddress 7 b!"x") := by
  refine ⟨.arre, [b!"{", b!"\"number\"", b!":", b!"7"], b!" ", b!"]", ?_, by unfold Ws; decide, ?_, ?_, ?_⟩
  · exact ⟨b!" ", _, rfl, by unfold Ws; decide, [], _, rfl, Ws.nil, b!" ", _, rfl, by unfold Ws; decide, [], _, rfl, Ws.nil, rfl⟩
  · intro l b t hl hb
    cases hl; cases hb
    exact ⟨fun _ => by decide, by decide⟩
  · refine ⟨fun b t h => by cases h; decide, ?_⟩
    rw [if_neg (by decide)]
    exact ⟨[], rfl⟩
  · have lit : ∀ s : Bytes, (∀ b ∈ s, wideRaw b) → StrMeans none s s := by
      intro s h
      induction s with
      | nil => exact .nil
      | cons b t ih => exact .raw (h b (by simp)) (ih fun c hc => h c (by simp [hc]))
    refine cut_msg (by simp) (.close (k := b!"number") (a := [b!"7"]) (j := .num b!"7") (rc := .ok)
      ⟨_, rfl, lit _ (by unfold wideRaw; decide)⟩ ?_ (by decide +kernel) (.inl rfl) (by simp) (by decide) (by decide))
    exact ⟨_, rfl, rfl, ⟨_, _, rfl, .inr (by decide)⟩, by decide⟩

end PG
