import Verif.Model.Dns
import Verif.Spec.SntpSession
/-!
# Waiting for DNS responses
-/
namespace Verif.Spec.DnsSession
open Verif.Hl Verif.Dns

/-- One attempt of an application: the environment does `before`, then `response` is called with a buffer of `cap` bytes while the environment goes
on with `during`; if there is a response, `next_rr` is called `count` times and then `done`. -/
structure Poll where
  before : List EnvStep
  cap : Nat
  count : Nat
  during : List (List EnvStep)

/-- What the application sees: an error, or the header of a response and the results of the calls of `next_rr`; `cap` and `count` are those of
the attempt. -/
inductive Seen where
  | error (e : Err)
  | answer (cap count : Nat) (header : Dns.Header) (rrs : List (Except Err (Option ResourceRecord)))

/-- `n` calls of `next_rr`. -/
def nexts (fuel : Nat) : Nat → World × Response → List (Except Err (Option ResourceRecord)) × World × Response
  | 0, s => ([], s)
  | n + 1, s => ((nextRr fuel worldBus s).1 :: (nexts fuel n (nextRr fuel worldBus s).2).1, (nexts fuel n (nextRr fuel worldBus s).2).2)

/-- An attempt.  (Release build.) -/
def Poll.run (fuel : Nat) (sn : Sn) (id : Option UInt16) (p : Poll) (w : World) : Seen × World :=
  match response false fuel worldBus sn p.cap id (w.pause p.before p.during) with
  | (.error e, w1) => (.error e, w1)
  | (.ok r, w1) =>
    let out := nexts fuel p.count (w1, r)
    match responseDone worldBus out.2.2 out.2.1 with
    | (.ok (), w2) => (.answer p.cap p.count r.header out.1, w2)
    | (.error e, w2) => (.error e, w2)

/-- One attempt after the other. -/
def polls (fuel : Nat) (sn : Sn) (id : Option UInt16) : List Poll → World → List Seen × World
  | [], w => ([], w)
  | p :: ps, w => ((p.run fuel sn id w).1 :: (polls fuel sn id ps (p.run fuel sn id w).2).1, (polls fuel sn id ps (p.run fuel sn id w).2).2)

/-- The responses among what the application saw. -/
def answers : List Seen → List Seen
  | .answer a b c d :: ss => .answer a b c d :: answers ss
  | .error _ :: ss => answers ss
  | [] => []

end Verif.Spec.DnsSession
