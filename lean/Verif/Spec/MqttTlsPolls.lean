import Verif.Spec.TlsPolls
import Verif.Model.MqttTls
/-!
# Calls of `process` of the MQTT client over TLS, one after the other
-/
namespace Verif.Spec.MqttTlsPolls
open Verif Hl Spec
open Verif.Tls (Crypto Fail)
open Verif.MqttTls (Client Error Event process)
open Verif.Spec.TlsPolls (Poll)

variable {x : Crypto}

/-- The result of the call, the device and the client afterwards.  (Release build.) -/
def poll (fuel : Nat) (q : Poll x) (s : World × Client x) : Except (Fail Error) (Event) × World × Client x :=
  process false fuel worldBus q.rng q.secs (s.1.pause q.before q.during, s.2)

/-- Calls: their results, the device and the client afterwards. -/
def polls (fuel : Nat) : List (Poll x) → World × Client x → List (Except (Fail Error) (Event)) × World × Client x
  | [], s => ([], s)
  | q :: qs, s => ((poll fuel q s).1 :: (polls fuel qs (poll fuel q s).2).1, (polls fuel qs (poll fuel q s).2).2)

/-- The caller is asked to call again after at most ten seconds. -/
def AsksAgain (r : Except (Fail Error) (Event)) : Prop := ∃ n : UInt32, r = .ok (.callAfter n) ∧ n.toNat ≤ 10

end Verif.Spec.MqttTlsPolls
