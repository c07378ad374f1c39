import Verif.Spec.PanicTls
import Verif.Model.MqttTls
/-!
# Panics of the MQTT client over TLS
-/
namespace Verif.Spec
open Verif.Hl Verif.Tls

/-- A call of `process` of the MQTT client over TLS, after any history of the TLS client below, which began with `start`.  The device
may answer anything; the conditions are those of `TlsHistory` for the call itself. -/
structure MqttTlsCall {σ : Type} {x : Crypto} (start : Tls.Client x) (k : Nat) (data : Prop) (dbg : Bool) (b : Bus σ) (rng : Rng x) (secs : UInt32)
    (s : σ) (c : MqttTls.Client x) : Prop where
  history : TlsHistory σ start k data c.tls
  calls : k + 2 < 2 ^ 64
  rand : rng.random.length = 32 ∧ rng.publicKey.length = 65
  device : Device b
  wait : c.tls.state = .waitConInt → NothingBeforeCon b c.tls.sn s
  asserts : dbg = true → TlsAsserts b s secs c.tls
  clock : dbg = true → ∀ t, c.timeout = some t → t ≤ secs

/-- A message the MQTT client over TLS handed out, after any number of reads of its topic and payload. -/
inductive TlsMessage (σ : Type) {x : Crypto} (start : Tls.Client x) (dbg : Bool) : TlsReader → Mqtt.PubInfo → Prop
  | got {k : Nat} {data : Prop} {fuel : Nat} {b : Bus σ} {rng : Rng x} {secs : UInt32} {s : σ} {c : MqttTls.Client x} {r : TlsReader}
      {i : Mqtt.PubInfo} : MqttTlsCall start k data dbg b rng secs s c →
      (MqttTls.process dbg fuel b rng secs (s, c)).1 = .ok (.publish r i) → TlsMessage σ start dbg r i
  | topic {n : Nat} {x : Bytes} {r r' : TlsReader} {i : Mqtt.PubInfo} : TlsMessage σ start dbg r i →
      MqttTls.onPublish dbg r (Mqtt.readTopicProg i n) = .ok (x, r') → TlsMessage σ start dbg r' i
  | payload {n : Nat} {x : Bytes} {r r' : TlsReader} {i : Mqtt.PubInfo} : TlsMessage σ start dbg r i →
      MqttTls.onPublish dbg r (Mqtt.readPayloadProg i n) = .ok (x, r') → TlsMessage σ start dbg r' i

end Verif.Spec
