import Verif.Spec.Cursor
import Verif.Model.Hl.Prog
/-!
# The queue that the TLS receive buffer should be
-/
namespace Verif.Spec
open Verif.Hl

/-- What is done to the receive buffer. -/
inductive QOp where
  /-- bytes of a record arrive -/
  | extend (src : Bytes)
  /-- the last byte (the content type) is taken off -/
  | popTail
  /-- the last `n` bytes are application data -/
  | commit (n : Nat)
  /-- the application uses a reader, and (if `done`) completes the reading -/
  | read (p : RProg Bytes) (done : Bool)

/-- What is seen of it. -/
inductive QOut where
  | ok
  | refused
  | byte (x : Option UInt8)
  | got (r : Except Err Bytes)
  | panic
  deriving DecidableEq

/-- A queue of at most `cap` bytes: application data that was not read, and then bytes of a record that is being received. -/
structure Queue where
  cap : Nat
  app : Bytes
  pending : Bytes

def Queue.size (q : Queue) : Nat := q.app.length + q.pending.length

def Queue.step (q : Queue) : QOp → QOut × Queue
  | .extend src => if q.size + src.length ≤ q.cap then (.ok, { q with pending := q.pending ++ src }) else (.refused, q)
  | .popTail => (.byte q.pending.getLast?, { q with pending := q.pending.dropLast })
  | .commit _ => (.ok, { q with app := q.app ++ q.pending, pending := [] })
  | .read p done =>
    if q.app = [] then (.got (.error .wouldBlock), q)
    else
      let r := p.run cursorOps ⟨q.app, 0⟩
      (.got r.1, if done then { q with app := q.app.drop r.2.pos } else q)

/-- The observations of a history. -/
def Queue.run (q : Queue) : List QOp → List QOut
  | [] => []
  | op :: rest => (q.step op).1 :: (q.step op).2.run rest

/-- The histories of the client: only bytes of the record being received are taken off, and all of them become application data
or none. -/
def Queue.Proper (q : Queue) : List QOp → Prop
  | [] => True
  | op :: rest => (match op with
      | .popTail => q.pending ≠ []
      | .commit n => n = q.pending.length
      | _ => True) ∧ (q.step op).2.Proper rest

/-- No append asks for exactly one byte more than there is room for. -/
def Queue.NeverOneTooMany (q : Queue) : List QOp → Prop
  | [] => True
  | op :: rest => (match op with
      | .extend src => q.size + src.length ≠ q.cap + 1
      | _ => True) ∧ (q.step op).2.NeverOneTooMany rest

end Verif.Spec
