import Verif.Proofs.CxxUtf8
/-
`parse_string` (protogen.hh:403-449) is `parseString`.
-/
set_option autoImplicit false
namespace PG.Cxx
variable {V F : Type} {σ : Bool} {ops : Ops V F}

/-- The pending surrogate is always one. -/
theorem lead_ok {value : Bytes} {lead cp : Nat} {q : Bytes × Nat} (h : putCodeUnit value lead cp = some q) :
    q.2 = 0 ∨ 0xD800 ≤ q.2 ∧ q.2 ≤ 0xDBFF := by
  unfold putCodeUnit at h
  split at h
  · next hc =>
    cases h
    simp only [Bool.and_eq_true, decide_eq_true_eq] at hc
    exact .inr hc
  · split at h
    · split at h
      · cases h
      · cases h; exact .inl rfl
    · split at h
      · cases h; exact .inl rfl
      · split at h
        · cases h; exact .inl rfl
        · cases h

/-- The variables of `parse_string`. -/
abbrev strVars (l c : Int) (value : Bytes) (lead : Nat) : List (List (Name × Val (Dom V F))) :=
  [[(n!"column", .int .i32 c), (n!"line", .int .i32 l), (n!"value", .str value), (n!"lead", .int .i32 lead)], []]

set_option maxHeartbeats 1000000 in
/-- The loop of `parse_string`. -/
theorem string_loop (m : Nat) (l c : Int) (n : Nat) (w : World) (lead : Nat) (value : Bytes) (hn : w.tz.inp.rest.length < n)
    (hl : lead = 0 ∨ 0xD800 ≤ lead ∧ lead ≤ 0xDBFF) :
    ∃ f value' lead', iterate (test (runtimeLib σ ops) (.unary n!"!" (.call (.member (.name n!"input_") n!"eof") .nil)))
      (exec (runtimeLib σ ops) m stringFunBody1) some n ⟨strVars l c value lead, w⟩ =
        some (f, ⟨strVars l c value' lead', { w with tz := { w.tz with inp := (lexString w.tz.inp lead value).2 } }⟩) ∧
      match (lexString w.tz.inp lead value).1 with
      | some v => f = .ret (.dom (.tok { id := .string, value := v }))
      | none => f = .next ∨ f = .goto n!"ESCAPE" := by
  induction n generalizing w lead value with
  | zero => omega
  | succ n ih =>
    rw [lexString]
    have hl' : (lead : Int) = 0 ∨ 0xD800 ≤ (lead : Int) ∧ (lead : Int) ≤ 0xDBFF := by omega
    have hu := fun w => tokenizer_utf8 (V := V) (F := F) (σ := σ) (w := w) value (lead : Int) hl'
    by_cases h : w.tz.inp.eof = false
    · have h1 : test (runtimeLib σ ops) (.unary n!"!" (.call (.member (.name n!"input_") n!"eof") .nil))
          ⟨strVars l c value lead, w⟩ = some (true, ⟨strVars l c value lead, w⟩) := by
        cxx [h]
      have hlen := w.tz.inp.next_length_lt h
      rw [dif_pos h]
      simp only
      by_cases c1 : w.tz.inp.next.peek = 34
      · rw [if_pos c1]
        exact ⟨_, _, _, iterate_ret h1 (by cxx [stringFunBody1, c1]; rfl), rfl⟩
      · rw [if_neg c1]
        by_cases c2 : w.tz.inp.next.peek = 92
        · rw [if_pos c2]
          have hlen2 := w.tz.inp.next.next_length_le
          by_cases c3 : w.tz.inp.next.next.peek = 117
          · rw [if_pos c3]
            have hlen3 := lexHex_length_le 4 0 w.tz.inp.next.next
            cases hx : (lexHex 4 0 w.tz.inp.next.next).1 with
            | none =>
              exact ⟨_, value, lead, iterate_goto h1 (by cxx [stringFunBody1, c2, c3, hx, hu]), .inr rfl⟩
            | some cp =>
              simp only
              cases hp : putCodeUnit value lead cp with
              | none =>
                exact ⟨_, value, lead, iterate_goto h1 (by cxx [stringFunBody1, c2, c3, hx, hu, Int.toNat_natCast, hp]), .inr rfl⟩
              | some q =>
                rw [iterate_next h1 (by cxx [stringFunBody1, c2, c3, hx, hu, Int.toNat_natCast, hp]; rfl) rfl]
                exact ih { w with tz := { w.tz with inp := (lexHex 4 0 w.tz.inp.next.next).2 } } q.2 q.1
                  (by show (lexHex 4 0 w.tz.inp.next.next).2.rest.length < n; omega) (lead_ok hp)
          · rw [if_neg c3]
            have hih := fun e => ih { w with tz := { w.tz with inp := w.tz.inp.next.next } } lead (value ++ [e])
              (by show w.tz.inp.next.next.rest.length < n; omega) hl
            unfold simpleEscape
            by_cases e1 : w.tz.inp.next.next.peek = 34
            · rw [if_pos e1, iterate_next h1 (by cxx [stringFunBody1, c2, e1]; rfl) rfl]
              exact hih _
            rw [if_neg e1]
            by_cases e2 : w.tz.inp.next.next.peek = 92
            · rw [if_pos e2, iterate_next h1 (by cxx [stringFunBody1, c2, e2]; rfl) rfl]
              exact hih _
            rw [if_neg e2]
            by_cases e3 : w.tz.inp.next.next.peek = 47
            · rw [if_pos e3, iterate_next h1 (by cxx [stringFunBody1, c2, e3]; rfl) rfl]
              exact hih _
            rw [if_neg e3]
            by_cases e4 : w.tz.inp.next.next.peek = 98
            · rw [if_pos e4, iterate_next h1 (by cxx [stringFunBody1, c2, e4]; rfl) rfl]
              exact hih _
            rw [if_neg e4]
            by_cases e5 : w.tz.inp.next.next.peek = 102
            · rw [if_pos e5, iterate_next h1 (by cxx [stringFunBody1, c2, e5]; rfl) rfl]
              exact hih _
            rw [if_neg e5]
            by_cases e6 : w.tz.inp.next.next.peek = 114
            · rw [if_pos e6, iterate_next h1 (by cxx [stringFunBody1, c2, e6]; rfl) rfl]
              exact hih _
            rw [if_neg e6]
            by_cases e7 : w.tz.inp.next.next.peek = 110
            · rw [if_pos e7, iterate_next h1 (by cxx [stringFunBody1, c2, e7]; rfl) rfl]
              exact hih _
            rw [if_neg e7]
            by_cases e8 : w.tz.inp.next.next.peek = 116
            · rw [if_pos e8, iterate_next h1 (by cxx [stringFunBody1, c2, e8]; rfl) rfl]
              exact hih _
            rw [if_neg e8]
            exact ⟨_, value, lead, iterate_goto h1
              (by cxx [stringFunBody1, c2, c3, e1, e2, e3, e4, e5, e6, e7, e8]), .inr rfl⟩
        · rw [if_neg c2]
          by_cases c3 : w.tz.inp.next.peek = 0
          · rw [if_pos c3]
            refine ⟨_, _, _, iterate_goto h1 (by cxx [stringFunBody1, c1, c2, c3]; rfl), .inr rfl⟩
          · rw [if_neg c3]
            rw [iterate_next h1 (by cxx [stringFunBody1, c1, c2, c3]; rfl) rfl]
            exact ih { w with tz := { w.tz with inp := w.tz.inp.next } } lead (value ++ [w.tz.inp.next.peek])
              (by show w.tz.inp.next.rest.length < n; omega) hl
    · have h : w.tz.inp.eof = true := by simpa using h
      rw [dif_neg (by simp [h])]
      exact ⟨_, value, lead, iterate_done (by cxx [h]), .inl rfl⟩

/-- protogen.hh:403-449. -/
theorem string_runs (n : Nat) (w : World) (hq : w.tz.inp.peek = 34) (hn : w.tz.inp.rest.length < n) :
    stringFun.run (runtimeLib σ ops) n [] w =
      some (.dom (.tok (parseString w.tz.inp).1), [], { w with tz := { w.tz with inp := (parseString w.tz.inp).2 } }) := by
  obtain ⟨f, v, lead, h, hf⟩ := string_loop (σ := σ) (ops := ops) n w.tz.inp.line w.tz.inp.col n w 0 [] hn (.inl rfl)
  unfold parseString
  simp only [strVars, Int.natCast_zero] at h
  cases hx : (lexString w.tz.inp 0 []).1 with
  | some x =>
    rw [hx] at hf
    subst hf
    cxx [stringFun, hq, h, ne_eq, not_true_eq_false]
    rw [show lexString w.tz.inp 0 [] = (some x, (lexString w.tz.inp 0 []).2) by rw [← hx]]
  | none =>
    rw [hx] at hf
    rw [show lexString w.tz.inp 0 [] = (none, (lexString w.tz.inp 0 []).2) by rw [← hx]]
    rcases hf with rfl | rfl
    · cxx [stringFun, hq, h, ne_eq, not_true_eq_false]
    · cxx [stringFun, hq, h, ne_eq, not_true_eq_false]
end PG.Cxx
