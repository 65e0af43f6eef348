import Verif.Core
/-!
# Model of fnft_errwarn.c, fnft__errwarn.c and the macros of fnft__errwarn.h
-/
namespace FNFT

/-! ## The message callback -/

/-- Value of type `fnft_printf_ptr_t`: NULL, `fnft__default_printf` or a function of the user. -/
inductive PrintfPtr
  | null
  | default
  | user (n : ℕ)
  deriving DecidableEq

/-- The storage of `fnft__printf_ptr`, /repo/src/fnft_errwarn.c:40-50: one variable per thread, initialised with
`fnft__default_printf`. (Without thread-local storage only the variable number 0 is used.) -/
abbrev PrintfVars := ℕ → PrintfPtr

/-- Initial value of the variables, fnft_errwarn.c:50. -/
def printfInit : PrintfVars := fun _ => .default

/-- The variable that thread `t` accesses; `tls`: HAVE__THREAD_LOCAL or HAVE___THREAD is defined, fnft_errwarn.c:43-49. -/
def printfVar (tls : Bool) (t : ℕ) : ℕ := if tls then t else 0

/-- `fnft_errwarn_setprintf`, fnft_errwarn.c:52-55. -/
def errwarn_setprintf (tls : Bool) (t : ℕ) (p : PrintfPtr) (v : PrintfVars) : PrintfVars :=
  Function.update v (printfVar tls t) p

/-- `fnft_errwarn_getprintf`, fnft_errwarn.c:57-60. -/
def errwarn_getprintf (tls : Bool) (t : ℕ) (v : PrintfVars) : PrintfPtr := v (printfVar tls t)

/-- The two formats of messages. -/
inductive MsgKind | error | warning
  deriving DecidableEq

/-- What is passed to the callback: which function is called, "FNFT Error" or "FNFT Warning", and the arguments (`msg`, `func`,
`line`; the version number is constant). -/
structure Printed where
  callee : PrintfPtr
  kind : MsgKind
  msg : String
  func : String
  line : ℤ
  deriving DecidableEq

/-- `fnft__errmsg_aux`, /repo/src/private/fnft__errwarn.c:28-37: returned value and the call of the callback. -/
def errmsg_aux (tls : Bool) (t : ℕ) (v : PrintfVars) (ec : ℤ) (func : String) (line : ℤ) (msg : String) : ℤ × Option Printed :=
  let p := errwarn_getprintf tls t v
  (ec, if p ≠ .null then some ⟨p, .error, msg, func, line⟩ else none)

/-- `fnft__warn_aux`, fnft__errwarn.c:39-46. -/
def warn_aux (tls : Bool) (t : ℕ) (v : PrintfVars) (func : String) (line : ℤ) (msg : String) : Option Printed :=
  let p := errwarn_getprintf tls t v
  if p ≠ .null then some ⟨p, .warning, msg, func, line⟩ else none

/-- The operations on the callback. -/
inductive PrintfOp
  | set (p : PrintfPtr)
  | get
  | errmsg (ec : ℤ) (func : String) (line : ℤ) (msg : String)
  | warn (func : String) (line : ℤ) (msg : String)

/-- What can be observed of an operation: the pointer or the code that is returned, and the call of the callback. -/
structure PrintfObs where
  ptr : Option PrintfPtr
  code : Option ℤ
  call : Option Printed
  deriving DecidableEq

/-- One operation of thread `t`. (Operations are atomic; concurrent calls without thread-local storage are a data race in C and
outside of the model. The callback runs last, so operations that it performs itself come afterwards in the history.) -/
def printfStep (tls : Bool) (e : ℕ × PrintfOp) (v : PrintfVars) : PrintfObs × PrintfVars :=
  match e.2 with
  | .set p => (⟨none, none, none⟩, errwarn_setprintf tls e.1 p v)
  | .get => (⟨some (errwarn_getprintf tls e.1 v), none, none⟩, v)
  | .errmsg ec func line msg => (⟨none, some (errmsg_aux tls e.1 v ec func line msg).1, (errmsg_aux tls e.1 v ec func line msg).2⟩, v)
  | .warn func line msg => (⟨none, none, warn_aux tls e.1 v func line msg⟩, v)

/-- A history: interleaving of the operations of all threads; the observations. -/
def printfRun (tls : Bool) : List (ℕ × PrintfOp) → PrintfVars → List PrintfObs
  | [], _ => []
  | e :: h, v => (printfStep tls e v).1 :: printfRun tls h (printfStep tls e v).2

/-! ## Return codes -/

/-- A routine that uses the macros of /repo/include/private/fnft__errwarn.h: it leaves at `leave_fun` with `ret_code` zero
(`done`), sets `ret_code` by one of the macros `E_...` and leaves (`fail`), or calls a subroutine, applies `CHECK_RETCODE` and goes
on (`call`). What it does depends on data; a term of this type is one execution. -/
inductive Routine
  | done
  | fail (ec : ℤ) (msg : String)
  | call (sub rest : Routine)

/-- Return code and messages (in this order) of an execution: `FNFT__ERRMSG`, `FNFT__E_SUBROUTINE` and `FNFT__CHECK_RETCODE`,
fnft__errwarn.h:36-108, 133. -/
def Routine.run : Routine → ℤ × List String
  | .done => (SUCCESS, [])
  | .fail ec msg => (ec, [msg])
  | .call sub rest =>
    let s := sub.run
    if s.1 ≠ SUCCESS then (E_SUBROUTINE s.1, s.2 ++ ["Subroutine failure."])
    else
      let r := rest.run
      (r.1, s.2 ++ r.2)

end FNFT
