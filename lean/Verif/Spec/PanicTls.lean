import Verif.Spec.Panic
import Verif.Model.Tls.Client
/-!
# Panics of the TLS client

What the chip and the application may do between the calls of a TLS client.
-/
namespace Verif.Spec
open Verif.Hl Verif.Tls

/-- The client has no connection: it has not asked for one, waits for it, or has given it up. -/
def Unconnected (s : TState) : Prop :=
  s = .reset ∨ s = .waitConInt ∨ s = .waitAlertSendOk ∨ s = .sendDiscon ∨ s = .waitDiscon

/-- Before the chip reports the connection it has received nothing: if the interrupts that are read do not include `CON`, then fewer
than five bytes are there when the number of received bytes is read next. -/
def NothingBeforeCon {σ : Type} (b : Bus σ) (sn : Sn) (s : σ) : Prop :=
  ∀ r s1, b.snIr sn s = (r, s1) → (∀ ir, r = .ok ir → ir.conRaised = false) →
    ∀ s2, (s2 = s1 ∨ ∃ v w, b.setSnIr sn v s1 = (w, s2)) → ∀ n, (b.snRxRsr sn s2).1 = .ok n → n < 5

/-- The debug build of the TLS client finds what its assertions ask for, and its clock has not gone backwards. -/
structure TlsAsserts {σ : Type} {x : Crypto} (b : Bus σ) (s : σ) (secs : UInt32) (c : Tls.Client x) : Prop where
  clock : ∀ t, c.timeout = some t → t ≤ secs
  status : c.state ≠ .reset → StatusTcp b c.sn
  unique : c.state = .reset → PortUnique b c.sn c.srcPort
  noCon : c.state = .reset → ∀ ir, (b.snIr c.sn s).1 = .ok ir → ir.conRaised = false

/-- A call of the TLS client, or of the MQTT client over it, did not panic: not in the model's own `panic`, and not for a missing key. -/
def NeverPanics {ε α : Type} (r : Except (Fail ε) α) : Prop := r ≠ .error (.stop .panic) ∧ r ≠ .error .noKey

/-- The clients of the histories that begin with `start`, with the number of calls that counted records and whether application data
has arrived on the connection.  A call of `process` may be made with any device in any state; what happens to the device between
the calls does not matter. -/
inductive TlsHistory (σ : Type) {x : Crypto} (start : Tls.Client x) : Nat → Prop → Tls.Client x → Prop where
  | new : TlsHistory σ start 0 False start
  | process {k : Nat} {data : Prop} {c c' : Tls.Client x} {s s' : σ} {r : Except (Fail TErr) TEvent} (dbg : Bool) (fuel : Nat)
      (b : Bus σ) (rng : Rng x) (secs : UInt32) (h : TlsHistory σ start k data c)
      (rand : rng.random.length = 32 ∧ rng.publicKey.length = 65)
      (calm : Device b ∧ (c.state = .waitConInt → NothingBeforeCon b c.sn s) ∧ (dbg = true → TlsAsserts b s secs c))
      (run : Tls.process dbg fuel b rng secs (s, c) = (r, (s', c'))) (ret : (∃ ev, r = .ok ev) ∨ ∃ e, r = .error (.err e)) :
      TlsHistory σ start (k + 1) ((data ∨ r = .ok .applicationData) ∧ ¬ Unconnected c'.state) c'
  | writeAll {k : Nat} {data : Prop} {c c' : Tls.Client x} {s s' : σ} {r} (b : Bus σ) (bytes : Bytes) (h : TlsHistory σ start k data c)
      (run : tlsWriteAll b bytes (s, c) = (r, (s', c'))) (ret : (∃ ev, r = .ok ev) ∨ ∃ e, r = .error (.err e)) :
      TlsHistory σ start k data c'
  | write {k : Nat} {data : Prop} {c c' c'' : Tls.Client x} {s s' t t' : σ} {p p' : Ptrs} {r} (b b' : Bus σ)
      (h : TlsHistory σ start k data c) (run : tlsWriter b (s, c) = (.ok p, (s', c')))
      (send : tlsSend b' p' (t, c') = (r, (t', c''))) (ret : (∃ ev, r = .ok ev) ∨ ∃ e, r = .error (.err e)) :
      TlsHistory σ start (k + 1) data c''
  | read {k : Nat} {data : Prop} {c : Tls.Client x} {r r' : TlsReader} (h : TlsHistory σ start k data c) (run : c.reader = .ok r)
      (same : r'.head = r.head ∧ r'.wrap = r.wrap) :
      TlsHistory σ start k data { c with rx := { c.rx with head := r'.done } }

end Verif.Spec
