import Verif.Proofs.CxxEval
/-
`tokenizer::error` (protogen.hh:365-374) is `Tz.error`; `set_error` (json.hh:21-29) is `setError`.
-/
set_option autoImplicit false
namespace PG.Cxx
variable {σ : Bool}

section
variable (s : Desk) (r : Record)
theorem record_signed : (recordLib σ).signed = σ := (rfl)
theorem record_get : (recordLib σ).get n!"error_" s = some (.dom (.record s.err)) := (rfl)
theorem record_getCurrent : (recordLib σ).get n!"current_" s = some (.dom .token) := (rfl)
theorem record_getError : (recordLib σ).get n!"PGR_ERROR" s = none := (rfl)
theorem record_constError : (recordLib σ).constant [n!"PGR_ERROR"] = some (.int .i32 1) := (rfl)
theorem record_constOk : (recordLib σ).constant [n!"error_code", n!"PGERR_OK"] = some (.int .i32 0) := (rfl)
theorem record_set : (recordLib σ).set n!"error_" (.dom (.record r)) s = some { s with err := r } := (rfl)
theorem record_code : (recordLib σ).member (.dom (.record r)) n!"code" s = some (.int .i32 r.code) := (rfl)
theorem record_message : (recordLib σ).member (.dom (.record r)) n!"message" s = some (.str r.message) := (rfl)
theorem record_line : (recordLib σ).member (.dom (.record r)) n!"line" s = some (.int .i32 r.line) := (rfl)
theorem record_column : (recordLib σ).member (.dom (.record r)) n!"column" s = some (.int .i32 r.col) := (rfl)
theorem token_line : (recordLib σ).member (.dom .token) n!"line" s = some (.int .i32 s.line) := (rfl)
theorem token_column : (recordLib σ).member (.dom .token) n!"column" s = some (.int .i32 s.col) := (rfl)
theorem record_code' (k : Int) :
    (recordLib σ).update (.dom (.record r)) n!"code" (.int .i32 k) = some (.dom (.record { r with code := k })) := (rfl)
theorem record_line' (k : Int) :
    (recordLib σ).update (.dom (.record r)) n!"line" (.int .i32 k) = some (.dom (.record { r with line := k })) := (rfl)
theorem record_column' (k : Int) :
    (recordLib σ).update (.dom (.record r)) n!"column" (.int .i32 k) = some (.dom (.record { r with col := k })) := (rfl)
theorem record_message' (m : Bytes) :
    (recordLib σ).update (.dom (.record r)) n!"message" (.str m) = some (.dom (.record { r with message := m })) := (rfl)
attribute [cxx] record_signed record_get record_getCurrent record_getError record_constError record_constOk record_set record_code
  record_message record_line record_column token_line token_column record_code' record_line' record_column' record_message'
end

theorem number_ok (c : ECode) : (c.number : Int) = 0 ↔ c = .ok := by cases c <;> decide

/-- What `error` uses of the tokenizer. -/
def Desk.of (tz : Tz) : Desk := ⟨.of tz.err, tz.cur.line, tz.cur.col⟩

/-- protogen.hh:365-374. -/
theorem error_runs (n : Nat) (tz : Tz) (c : ECode) :
    errorFun.run (recordLib σ) n [.int .i32 c.number, .str c.message] (Desk.of tz) =
      some (.int .i32 1, [.int .i32 c.number, .str c.message], Desk.of (tz.error c).2) := by
  unfold Tz.error
  by_cases h : tz.err.code = .ok
  · have h' := (number_ok _).mpr h
    rw [if_neg (by simp [h])]
    cxx [errorFun, Desk.of, Record.of, h']
  · have h' := mt (number_ok _).mp h
    rw [if_pos h]
    cxx [errorFun, Desk.of, Record.of, h']

/-- json.hh:21-29. -/
theorem setError_runs (n : Nat) (e : ErrInfo) (c : ECode) (s : Desk) :
    setErrorFun.run (recordLib σ) n [.dom (.record (.of e)), .int .i32 c.number, .str c.message] s =
      some (.int .i32 1, [.dom (.record (.of (setError e c).2)), .int .i32 c.number, .str c.message], s) := by
  unfold setError
  by_cases h : e.code = .ok
  · have h' := (number_ok _).mpr h
    rw [if_neg (by simp [h])]
    cxx [setErrorFun, Record.of, h']
  · have h' := mt (number_ok _).mp h
    rw [if_pos h]
    cxx [setErrorFun, Record.of, h']
end PG.Cxx
