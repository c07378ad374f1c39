import Verif.Thm.TlsHandshake
import Verif.Thm.MqttOut
/-!
# A whole handshake

A client and a server with the pre-shared key `[5]`.  The kernel runs the model of the client; the hash values are computed once, in the
theorems `sha_ok`, `hmac_ok`, `extract_ok` and `expand_ok`, and looked up afterwards.
-/
namespace Verif.Tls.Witness
open Verif Hl
open _root_.Verif.Spec (World worldBus HsMsg RxState)
open _root_.Verif.Spec.Tls (HelloExtension helloBytes plaintextHandshake)

def early : Bytes :=
  [199, 5, 155, 166, 79, 4, 140, 213, 188, 201, 66, 24, 124, 234, 102, 0, 172, 16, 144, 147, 192, 162, 193, 81,
   133, 55, 21, 149, 254, 96, 239, 107]
def binderKey : Bytes :=
  [142, 127, 39, 64, 174, 28, 126, 247, 186, 11, 76, 126, 111, 106, 98, 254, 120, 202, 103, 121, 92, 7, 231, 207,
   249, 84, 87, 202, 195, 162, 232, 194]
def finishedKey : Bytes :=
  [17, 20, 47, 181, 249, 47, 177, 231, 169, 62, 40, 154, 122, 176, 66, 48, 50, 177, 95, 176, 53, 16, 49, 19,
   130, 246, 218, 131, 143, 64, 223, 170]
def binder : Bytes :=
  [220, 107, 6, 3, 211, 242, 65, 127, 62, 40, 196, 176, 243, 34, 68, 156, 253, 49, 195, 173, 252, 142, 71, 129,
   50, 27, 169, 111, 224, 21, 251, 250]
def derived1 : Bytes :=
  [124, 161, 64, 142, 100, 247, 229, 9, 190, 141, 147, 87, 252, 223, 52, 71, 77, 167, 46, 238, 240, 65, 124, 64,
   36, 93, 131, 168, 96, 240, 200, 120]
def handshake : Bytes :=
  [67, 174, 229, 247, 65, 198, 144, 212, 224, 164, 189, 217, 250, 221, 92, 201, 219, 196, 31, 47, 254, 136, 218, 14,
   194, 47, 230, 27, 215, 78, 40, 194]
def clientHs : Bytes :=
  [186, 42, 207, 104, 89, 196, 251, 109, 63, 28, 118, 24, 109, 14, 224, 18, 5, 174, 175, 59, 53, 226, 229, 53,
   211, 147, 237, 23, 14, 180, 31, 129]
def serverHs : Bytes :=
  [11, 199, 162, 65, 91, 46, 17, 211, 102, 150, 40, 23, 3, 131, 1, 21, 30, 92, 109, 111, 31, 203, 119, 182,
   61, 120, 195, 178, 66, 34, 100, 196]
def derived2 : Bytes :=
  [152, 98, 38, 31, 187, 47, 6, 173, 31, 193, 183, 176, 209, 104, 31, 40, 88, 170, 248, 14, 221, 33, 103, 222,
   190, 232, 75, 197, 83, 185, 103, 65]
def serverKey : Bytes :=
  [32, 25, 100, 244, 246, 214, 33, 167, 187, 41, 121, 120, 50, 222, 140, 31, 4, 7, 71, 98, 178, 175, 180, 212,
   155, 70, 9, 247, 248, 209, 192, 26]
def serverData : Bytes :=
  [243, 5, 183, 63, 174, 160, 122, 198, 214, 111, 112, 187, 80, 179, 25, 203, 33, 79, 211, 197, 176, 128, 254, 21,
   240, 158, 101, 185, 111, 56, 232, 21]
def clientKey : Bytes :=
  [87, 31, 174, 176, 247, 172, 207, 251, 221, 212, 25, 188, 146, 175, 162, 201, 161, 113, 173, 250, 12, 36, 9, 120,
   215, 91, 14, 98, 146, 152, 115, 82]
def clientData : Bytes :=
  [112, 204, 97, 128, 211, 63, 148, 106, 70, 74, 4, 19, 202, 80, 61, 19, 224, 210, 86, 201, 147, 184, 173, 208,
   160, 63, 192, 208, 0, 85, 8, 176]
def master : Bytes :=
  [73, 167, 58, 24, 190, 193, 124, 214, 120, 226, 13, 133, 234, 183, 49, 70, 254, 238, 47, 5, 216, 69, 5, 77,
   140, 26, 163, 213, 184, 42, 190, 19]
def clientApp : Bytes :=
  [246, 138, 196, 164, 60, 69, 94, 149, 244, 97, 236, 58, 19, 159, 12, 24, 210, 129, 198, 9, 63, 255, 27, 154,
   6, 232, 145, 73, 126, 29, 22, 37]
def serverApp : Bytes :=
  [180, 66, 126, 170, 211, 75, 191, 151, 123, 221, 22, 193, 107, 79, 38, 230, 207, 84, 147, 215, 22, 234, 204, 80,
   158, 150, 242, 234, 252, 179, 166, 41]
def derived3 : Bytes :=
  [126, 129, 241, 15, 201, 72, 201, 44, 234, 90, 93, 221, 161, 194, 78, 255, 22, 120, 248, 114, 103, 60, 89, 176,
   92, 83, 86, 122, 116, 189, 13, 249]
def next : Bytes :=
  [79, 30, 201, 185, 169, 228, 102, 84, 153, 55, 39, 195, 219, 100, 68, 127, 50, 128, 222, 221, 208, 71, 147, 31,
   241, 19, 147, 177, 157, 51, 1, 121]
def updated : Bytes :=
  [205, 169, 191, 6, 78, 168, 88, 240, 112, 21, 149, 148, 138, 56, 25, 247, 236, 109, 243, 221, 99, 238, 129, 187,
   19, 52, 24, 155, 183, 12, 237, 196]
def derived4 : Bytes :=
  [72, 70, 192, 35, 149, 112, 181, 248, 193, 121, 47, 208, 11, 94, 184, 149, 94, 212, 221, 187, 191, 163, 18, 80,
   175, 9, 7, 116, 103, 156, 230, 30]
def earlyTraffic : Bytes :=
  [43, 127, 158, 79, 139, 25, 20, 245, 218, 6, 235, 141, 181, 44, 106, 240, 76, 179, 76, 39, 240, 188, 10, 55,
   166, 245, 197, 80, 18, 112, 92, 19]
def hashCut : Bytes :=
  [212, 11, 186, 218, 233, 170, 131, 10, 248, 7, 242, 182, 189, 218, 247, 248, 95, 197, 99, 187, 66, 75, 16, 122,
   23, 140, 117, 191, 240, 68, 17, 103]
def hash1 : Bytes :=
  [95, 210, 197, 114, 216, 173, 195, 60, 121, 90, 105, 236, 125, 136, 169, 164, 125, 55, 213, 250, 138, 231, 24, 68,
   188, 128, 140, 75, 88, 210, 0, 30]
def hash2 : Bytes :=
  [65, 163, 145, 39, 85, 163, 225, 111, 193, 211, 31, 226, 164, 154, 103, 169, 80, 213, 184, 237, 112, 75, 181, 229,
   73, 97, 139, 30, 250, 54, 185, 120]
def hash3 : Bytes :=
  [133, 212, 7, 130, 181, 222, 170, 56, 6, 79, 132, 244, 101, 169, 66, 186, 0, 85, 220, 21, 153, 45, 227, 9,
   211, 41, 14, 134, 30, 49, 158, 237]
def hash4 : Bytes :=
  [65, 139, 193, 104, 104, 108, 147, 140, 243, 43, 0, 113, 28, 9, 112, 71, 36, 239, 169, 126, 105, 178, 80, 96,
   243, 58, 150, 48, 193, 104, 138, 148]

/-- What the client sends first: the client hello. -/
def ch : Bytes :=
  [1, 0, 0, 227, 3, 3] ++ List.replicate 32 7 ++ [0, 0, 2, 19, 1, 1, 0, 0, 184, 0, 10, 0, 4, 0, 2, 0, 23, 0, 45, 0, 2, 1, 1, 0,
   43, 0, 3, 2, 3, 4, 0, 13, 0, 20, 0, 18, 4, 1, 5, 1, 6, 1, 4, 3, 5, 3, 8, 4,
   8, 5, 8, 6, 8, 7, 0, 0, 0, 6, 0, 4, 0, 0, 1, 104, 0, 51, 0, 71, 0, 69, 0, 23,
   0, 65, 4] ++ List.replicate 64 9 ++
   [0, 28, 0, 2, 3, 234, 0, 41, 0, 44, 0, 7, 0, 1, 105, 0, 0, 0, 0, 0, 33, 32] ++ binder

/-- The extensions of the server hello: a key share, TLS 1.3, the first identity. -/
def helloExtensions : List HelloExtension := [.keyShare (4 :: List.replicate 64 8), .tls13, .firstIdentity]

/-- What the server answers. -/
def shBody : Bytes := helloBytes (List.replicate 32 3) 85 (HelloExtension.listBytes helloExtensions)
def sh : Bytes := (HsMsg.mk 2 shBody).bytes
def ee : Bytes := (HsMsg.mk 8 [0, 0]).bytes
def fin : Bytes := (HsMsg.mk 20 serverData).bytes

/-- Look a value up. -/
def memo {α : Type} [DecidableEq α] (t : List (α × Bytes)) (f : α → Bytes) (a : α) : Bytes :=
  match t.find? fun e => e.1 = a with
  | some e => e.2
  | none => f a

theorem memo_eq {α : Type} [DecidableEq α] (t : List (α × Bytes)) (f : α → Bytes) (h : ∀ e ∈ t, f e.1 = e.2) : memo t f = f := by
  funext a
  unfold memo
  split
  · rename_i e he
    have h1 := List.find?_some he
    rw [← h e (List.mem_of_find?_eq_some he)]
    rw [of_decide_eq_true h1]
  · rfl

def shaT : List (Bytes × Bytes) := [(ch.take 196, hashCut), (ch, hash1), (ch ++ sh, hash2), (ch ++ sh ++ ee, hash3), (ch ++ sh ++ ee ++ fin, hash4)]

def hmacT : List ((Bytes × Bytes) × Bytes) := [((finishedKey, hashCut), binder), ((serverKey, hash3), serverData), ((clientKey, hash4), clientData)]

def extractT : List ((Bytes × Bytes) × Bytes) :=
  [((zerosOfHashLen, [5]), early), ((derived1, [6]), handshake), ((derived2, zerosOfHashLen), master),
   ((derived3, zerosOfHashLen), next)]

/-- `info` is the label, the context and the length. -/
def expandT : List ((Bytes × Bytes × Nat) × Bytes) :=
  [((early, hkdfLabel 32 (ascii "ext binder") emptyHash, 32), binderKey),
   ((binderKey, hkdfLabel 32 (ascii "finished") [], 32), finishedKey),
   ((early, hkdfLabel 32 (ascii "c e traffic") hash1, 32), earlyTraffic),
   ((early, hkdfLabel 32 (ascii "derived") emptyHash, 32), derived1),
   ((handshake, hkdfLabel 32 (ascii "c hs traffic") hash2, 32), clientHs),
   ((handshake, hkdfLabel 32 (ascii "s hs traffic") hash2, 32), serverHs),
   ((handshake, hkdfLabel 32 (ascii "derived") emptyHash, 32), derived2),
   ((serverHs, hkdfLabel 32 (ascii "finished") [], 32), serverKey),
   ((clientHs, hkdfLabel 32 (ascii "finished") [], 32), clientKey),
   ((clientHs, hkdfLabel 16 (ascii "key") [], 16), [140, 112, 114, 245, 237, 163, 135, 62, 134, 246, 97, 136, 176, 93, 206, 201]),
   ((clientHs, hkdfLabel 12 (ascii "iv") [], 12), [215, 225, 0, 195, 65, 64, 170, 44, 160, 68, 148, 191]),
   ((master, hkdfLabel 32 (ascii "c ap traffic") hash4, 32), clientApp),
   ((master, hkdfLabel 32 (ascii "s ap traffic") hash4, 32), serverApp),
   ((master, hkdfLabel 32 (ascii "derived") emptyHash, 32), derived3),
   ((next, hkdfLabel 32 (ascii "traffic upd") hash4, 32), updated),
   ((next, hkdfLabel 32 (ascii "derived") emptyHash, 32), derived4)]

theorem sha_ok : ∀ e ∈ shaT, Spec.Sha256.sha256 e.1 = e.2 := by
  intro e
  rw [Sha.sha256F_eq]
  revert e
  decide +kernel

theorem hmac_ok : ∀ e ∈ hmacT, Spec.Sha256.hmac e.1.1 e.1.2 = e.2 := by
  intro e h
  rw [Sha.hmacF_eq _ _ ((by decide +kernel : ∀ e ∈ hmacT, e.1.1.length ≤ 64) e h)]
  revert e
  decide +kernel

theorem extract_ok : ∀ e ∈ extractT, Spec.Sha256.extract e.1.1 e.1.2 = e.2 := by
  intro e h
  show Spec.Sha256.hmac _ _ = _
  rw [Sha.hmacF_eq _ _ ((by decide +kernel : ∀ e ∈ extractT, e.1.1.length ≤ 64) e h)]
  revert e
  decide +kernel

theorem expand_take (prk info : Bytes) {n : Nat} (h : 1 ≤ n) (h' : n ≤ 32) :
    Spec.Sha256.expand prk info n = (Spec.Sha256.hmac prk (info ++ [1])).take n := by
  unfold Spec.Sha256.expand
  rw [show (n + 31) / 32 = 1 by omega, show (List.range 1) = [0] from rfl, List.map_cons, List.map_nil, List.flatten_singleton]
  rfl

theorem expand_ok : ∀ e ∈ expandT, Spec.Sha256.expand e.1.1 e.1.2.1 e.1.2.2 = e.2 := by
  intro e h
  have h1 := (by decide +kernel : ∀ e ∈ expandT, e.1.1.length ≤ 64 ∧ 1 ≤ e.1.2.2 ∧ e.1.2.2 ≤ 32) e h
  rw [expand_take _ _ h1.2.1 h1.2.2, Sha.hmacF_eq _ _ h1.1]
  clear h1
  revert e
  decide +kernel

/-- The functions of the client; a key agreement that always gives `[6]`. -/
def X : Crypto :=
  { Secret := Unit, Public := Unit
    sha256 := memo shaT Spec.Sha256.sha256
    hmac := fun k m => memo hmacT (fun a => Spec.Sha256.hmac a.1 a.2) (k, m)
    extract := fun k m => memo extractT (fun a => Spec.Sha256.extract a.1 a.2) (k, m)
    expand := fun k m n => memo expandT (fun a => Spec.Sha256.expand a.1 a.2.1 a.2.2) (k, m, n)
    dh := fun _ _ => [6], sec1 := fun _ => some () }

instance : DecidableEq X.Secret := inferInstanceAs (DecidableEq Unit)
instance : DecidableEq X.Public := inferInstanceAs (DecidableEq Unit)

theorem standard : X.Standard where
  sha256 := memo_eq _ _ sha_ok
  hmac := by
    show (fun k m => memo hmacT (fun a => Spec.Sha256.hmac a.1 a.2) (k, m)) = _
    rw [memo_eq _ _ hmac_ok]
  extract := by
    show (fun k m => memo extractT (fun a => Spec.Sha256.extract a.1 a.2) (k, m)) = _
    rw [memo_eq _ _ extract_ok]
  expand := by
    show (fun k m n => memo expandT (fun a => Spec.Sha256.expand a.1 a.2.1 a.2.2) (k, m, n)) = _
    rw [memo_eq _ _ expand_ok]

/-- A client for socket 3 and the server `h` at 10.0.0.1:443, with the identity `i` and the pre-shared key `[5]`. -/
def setup : Setup :=
  ⟨.sn3, 4433, [104], ⟨⟨10, 0, 0, 1⟩, 443⟩, [105], [5], List.replicate 1024 0, by decide, by rw [List.length_replicate]; decide⟩

def rng : Rng X := ⟨List.replicate 32 7, (), 4 :: List.replicate 64 9⟩

theorem rng_ok : rng.Ok := ⟨by decide +kernel, by decide +kernel⟩

/-- Every part of two clients is the same. -/
def same (c d : Client X) : Bool :=
  decide (c.sn = d.sn) && decide (c.srcPort = d.srcPort) && decide (c.hostname = d.hostname) && decide (c.dst = d.dst) &&
  decide (c.state = d.state) && decide (c.timeout = d.timeout) && decide (c.identity = d.identity) && decide (c.psk = d.psk) &&
  decide (c.rx = d.rx) &&
  decide (c.ks.clientSecret = d.ks.clientSecret) &&
  decide (c.ks.serverPublic = d.ks.serverPublic) && decide (c.ks.transcript = d.ks.transcript) &&
  decide (c.ks.readSeq = d.ks.readSeq) && decide (c.ks.writeSeq = d.ks.writeSeq) && decide (c.ks.hkdf = d.ks.hkdf) &&
  decide (c.ks.secret = d.ks.secret) && decide (c.ks.clientTraffic = d.ks.clientTraffic) &&
  decide (c.ks.serverTraffic = d.ks.serverTraffic)

theorem same_eq {c d : Client X} (h : same c d = true) : c = d := by
  obtain ⟨_, _, _, _, _, _, ⟨_, _, _, _, _, _, _, _, _⟩, _, _, _⟩ := c
  obtain ⟨_, _, _, _, _, _, ⟨_, _, _, _, _, _, _, _, _⟩, _, _, _⟩ := d
  simp only [same, Bool.and_eq_true, decide_eq_true_eq] at h
  obtain ⟨⟨⟨⟨⟨⟨⟨⟨⟨⟨⟨⟨⟨⟨⟨⟨⟨rfl, rfl⟩, rfl⟩, rfl⟩, rfl⟩, rfl⟩, rfl⟩, rfl⟩, rfl⟩, e1⟩, e2⟩, rfl⟩, rfl⟩, rfl⟩, rfl⟩, rfl⟩, rfl⟩, rfl⟩ := h
  cases e1
  cases e2
  rfl

/-- The result of a call and the client after it. -/
def call (ir : UInt8) (data : Bytes) (c : Client X) : Except (Fail TErr) TEvent × Client X :=
  match process true 3 worldBus rng 0 (Thm.tcpWorld ir data, c) with
  | (r, (_, c')) => (r, c')

/-- The receive buffer after each call. -/
def buf1 : Bytes := writeAt (List.replicate 1024 0) 0 ([22, 3, 3] ++ Spec.Tls.u16 231 ++ ch)
def buf2 : Bytes := writeAt buf1 0 sh
def buf3 : Bytes := writeAt buf2 0 ee
def buf4 : Bytes := writeAt buf3 0 fin

/-- The client after each call. -/
def c1 : Client X := { setup.client X with state := .waitConInt, timeout := some 0 }
def c2 : Client X :=
  { c1 with
    state := .waitServerHello, rx := Buffer.ofBuf buf1
    ks := { clientSecret := some (), serverPublic := none, transcript := ch, readSeq := 0, writeSeq := 0, hkdf := early
            secret := derived1, clientTraffic := some earlyTraffic, serverTraffic := none } }
def c3 : Client X :=
  { c2 with
    state := .waitEncryptedExtensions, rx := Buffer.ofBuf buf2
    ks := { clientSecret := some (), serverPublic := some (), transcript := ch ++ sh, readSeq := 0, writeSeq := 0, hkdf := handshake
            secret := derived2, clientTraffic := some clientHs, serverTraffic := some serverHs } }
def c4 : Client X :=
  { c3 with state := .waitFinished, rx := Buffer.ofBuf buf3, ks := { c3.ks with transcript := ch ++ sh ++ ee } }
def c5 : Client X :=
  { c4 with
    state := .connected, timeout := none, rx := Buffer.ofBuf buf4
    ks := { clientSecret := some (), serverPublic := some (), transcript := ch ++ sh ++ ee ++ fin, readSeq := 0, writeSeq := 0
            hkdf := master, secret := derived3, clientTraffic := some clientApp, serverTraffic := some serverApp } }

/-- The call returned this value. -/
def isOk (r : Except (Fail TErr) TEvent) (ev : TEvent) : Bool :=
  match r with
  | .ok e => decide (e = ev)
  | _ => false

def good (ir : UInt8) (data : Bytes) (c : Client X) (ev : TEvent) (c' : Client X) : Bool :=
  match call ir data c with
  | (r, d) => isOk r ev && same d c'

theorem good1 : good 0 [] (setup.client X) (.callAfter 10) c1 = true := by decide +kernel
theorem good2 : good 1 [] c1 (.callAfter 10) c2 = true := by decide +kernel
theorem good3 : good 0 (plaintextHandshake sh) c2 (.callAfter 10) c3 = true := by decide +kernel
theorem good4 : good 0 (plaintextHandshake ee) c3 (.callAfter 10) c4 = true := by decide +kernel
theorem good5 : good 0 (plaintextHandshake fin) c4 .handshakeFinished c5 = true := by decide +kernel

theorem run_of {ir : UInt8} {data : Bytes} {c c' : Client X} {ev : TEvent} (h : good ir data c ev c' = true) :
    ∃ w, process true 3 worldBus rng 0 (Thm.tcpWorld ir data, c) = (.ok ev, (w, c')) := by
  unfold good call at h
  rcases hp : process true 3 worldBus rng 0 (Thm.tcpWorld ir data, c) with ⟨r, w, d⟩
  rw [hp] at h
  simp only [Bool.and_eq_true] at h
  have := same_eq h.2
  subst this
  refine ⟨w, ?_⟩
  have h1 := h.1
  unfold isOk at h1
  split at h1
  · rw [of_decide_eq_true h1]
  · simp at h1

/-- Where the connection is reported, the client waits for it. -/
theorem waits {ir : UInt8} {data : Bytes} {c : Client X} (hs : c.sn = .sn3) (h : (⟨ir⟩ : SocketInterrupt).conRaised = true → c.state = .waitConInt) :
    ConWaits worldBus (Thm.tcpWorld ir data) c := by
  intro r s' e hr
  rw [hs, Mqtt.run_snIr] at e
  injection e with e _
  injection e with e
  subst e
  exact h hr

theorem reached1 (once : Prop) : Reached World once (setup.client X) c1 :=
  have ⟨_, h⟩ := run_of good1
  .process _ _ _ _ _ .new rng_ok (fun _ => waits rfl (by decide)) h (.inl ⟨_, rfl⟩)

theorem reached2 (once : Prop) : Reached World once (setup.client X) c2 :=
  have ⟨_, h⟩ := run_of good2
  .process _ _ _ _ _ (reached1 once) rng_ok (fun _ => waits rfl (fun _ => rfl)) h (.inl ⟨_, rfl⟩)

theorem reached3 (once : Prop) : Reached World once (setup.client X) c3 :=
  have ⟨_, h⟩ := run_of good3
  .process _ _ _ _ _ (reached2 once) rng_ok (fun _ => waits rfl (by decide)) h (.inl ⟨_, rfl⟩)

theorem reached4 (once : Prop) : Reached World once (setup.client X) c4 :=
  have ⟨_, h⟩ := run_of good4
  .process _ _ _ _ _ (reached3 once) rng_ok (fun _ => waits rfl (by decide)) h (.inl ⟨_, rfl⟩)

theorem reached5 (once : Prop) : Reached World once (setup.client X) c5 :=
  have ⟨_, h⟩ := run_of good5
  .process _ _ _ _ _ (reached4 once) rng_ok (fun _ => waits rfl (by decide)) h (.inl ⟨_, rfl⟩)

/-- Non-vacuity of `C59_handshake` and `C59_authenticated`: this history meets the hypotheses. -/
example : Reached World True (setup.client X) c4 ∧ ConWaits worldBus (Thm.tcpWorld 0 (plaintextHandshake fin)) c4 ∧ c4.connected = false ∧
    c5.connected = true ∧ ∃ w, process true 3 worldBus rng 0 (Thm.tcpWorld 0 (plaintextHandshake fin), c4) = (.ok .handshakeFinished, (w, c5)) :=
  ⟨reached4 _, waits rfl (by decide), by decide, by decide, run_of good5⟩

/-- So the client and the server agree. -/
example : ∃ rng : Rng X, rng.Ok ∧ Agreed setup.psk c5.ks rng.secret (setup.offer rng).hello :=
  have ⟨_, h⟩ := run_of good5
  (C59_handshake standard setup (reached4 _) _ _ _ rng rng_ok _ _ _ _ (waits rfl (by decide)) h (.inl ⟨_, rfl⟩) (by decide) (by decide)).2

/-- The client after a KeyUpdate. -/
def c6 : Client X :=
  { c5 with
    rx := Buffer.ofBuf (writeAt buf4 0 [24, 0, 0, 1, 1])
    ks := { c5.ks with
            transcript := ch ++ sh ++ ee ++ fin ++ [24, 0, 0, 1, 1], hkdf := next, secret := derived4, clientTraffic := some updated, serverTraffic := some updated } }

theorem good6 : good 0 (plaintextHandshake [24, 0, 0, 1, 1]) c5 .none c6 = true := by decide +kernel

/-- The client after a KeyUpdate that requests nothing. -/
def c7 : Client X :=
  { c5 with
    rx := Buffer.ofBuf (writeAt buf4 0 [24, 0, 0, 1, 0])
    ks := { c5.ks with transcript := ch ++ sh ++ ee ++ fin ++ [24, 0, 0, 1, 0] } }

theorem good7 : good 0 (plaintextHandshake [24, 0, 0, 1, 0]) c5 .none c7 = true := by decide +kernel

theorem rx_ee : RxState (Thm.tcpWorld 0 (plaintextHandshake ee)).chip 3 0 :=
  ⟨by decide +kernel, by decide +kernel, by decide +kernel, by decide +kernel, by decide +kernel, by decide +kernel⟩
theorem rx_fin : RxState (Thm.tcpWorld 0 (plaintextHandshake fin)).chip 3 0 :=
  ⟨by decide +kernel, by decide +kernel, by decide +kernel, by decide +kernel, by decide +kernel, by decide +kernel⟩
theorem rx_update : RxState (Thm.tcpWorld 0 (plaintextHandshake [24, 0, 0, 1, 1])).chip 3 0 :=
  ⟨by decide +kernel, by decide +kernel, by decide +kernel, by decide +kernel, by decide +kernel, by decide +kernel⟩

/-- **C82 is false.**  There is a history with handshake keys in place in which the client accepts EncryptedExtensions (8) and Finished
(20) that are not encrypted: the socket has received nothing but a plaintext record, and the handshake goes on and finishes. -/
theorem C82_plaintext_handshake_is_accepted : ∃ (x : Crypto) (u : Setup) (rng : Rng x) (c c' c'' : Client x) (ee fin : Bytes)
    (w w' v v' : World), x.Standard ∧ rng.Ok ∧ Reached World True (u.client x) c ∧ c.ks.serverTraffic ≠ none ∧
    ee.head? = some 8 ∧ RxState w.chip u.sn.idx 0 ∧ w.chip.received u.sn.idx = plaintextHandshake ee ∧ w.sched = [] ∧
    process true 3 worldBus rng 0 (w, c) = (.ok (.callAfter 10), (w', c')) ∧
    fin.head? = some 20 ∧ RxState v.chip u.sn.idx 0 ∧ v.chip.received u.sn.idx = plaintextHandshake fin ∧ v.sched = [] ∧
    process true 3 worldBus rng 0 (v, c') = (.ok .handshakeFinished, (v', c'')) := by
  obtain ⟨w', h4⟩ := run_of good4
  obtain ⟨v', h5⟩ := run_of good5
  exact ⟨X, setup, rng, c3, c4, c5, ee, fin, _, w', _, v', standard, rng_ok, reached3 _, by simp [c3], by decide +kernel, rx_ee, rfl, rfl, h4,
    by decide +kernel, rx_fin, rfl, rfl, h5⟩

/-- **C82 is false.**  A KeyUpdate in a plaintext record, which anyone can send who can insert bytes into the connection, changes the keys
of a connected client in both directions. -/
theorem C82_plaintext_key_update_is_accepted : ∃ (x : Crypto) (u : Setup) (rng : Rng x) (c c' : Client x) (w w' : World),
    x.Standard ∧ rng.Ok ∧ Reached World True (u.client x) c ∧ c.connected = true ∧ RxState w.chip u.sn.idx 0 ∧
    w.chip.received u.sn.idx = plaintextHandshake [24, 0, 0, 1, 1] ∧ w.sched = [] ∧
    process true 3 worldBus rng 0 (w, c) = (.ok .none, (w', c')) ∧ c'.connected = true ∧
    c'.ks.clientTraffic ≠ c.ks.clientTraffic ∧ c'.ks.serverTraffic ≠ c.ks.serverTraffic := by
  obtain ⟨w', h⟩ := run_of good6
  exact ⟨X, setup, rng, c5, c6, _, w', standard, rng_ok, reached5 _, by decide, rx_update, rfl, rfl, h, by decide, by decide +kernel,
    by decide +kernel⟩

theorem rx_update' : RxState (Thm.tcpWorld 0 (plaintextHandshake [24, 0, 0, 1, 0])).chip 3 0 :=
  ⟨by decide +kernel, by decide +kernel, by decide +kernel, by decide +kernel, by decide +kernel, by decide +kernel⟩

/-- **C80 is false.**  RFC 8446 section 4.6.3: whoever sends a KeyUpdate encrypts the next records with the next key, whether an update is
requested (1) or not (0).  A connected client accepts a KeyUpdate with 0, and keeps all keys. -/
theorem C80_key_update_is_ignored : ∃ (x : Crypto) (u : Setup) (rng : Rng x) (c c' : Client x) (w w' : World),
    x.Standard ∧ rng.Ok ∧ Reached World True (u.client x) c ∧ c.connected = true ∧ RxState w.chip u.sn.idx 0 ∧
    w.chip.received u.sn.idx = plaintextHandshake [24, 0, 0, 1, 0] ∧ w.sched = [] ∧
    process true 3 worldBus rng 0 (w, c) = (.ok .none, (w', c')) ∧ c'.connected = true ∧
    c'.ks.serverTraffic = c.ks.serverTraffic ∧ c'.ks.clientTraffic = c.ks.clientTraffic := by
  obtain ⟨w', h⟩ := run_of good7
  exact ⟨X, setup, rng, c5, c7, _, w', standard, rng_ok, reached5 _, by decide, rx_update', rfl, rfl, h, by decide, rfl, rfl⟩

end Verif.Tls.Witness
