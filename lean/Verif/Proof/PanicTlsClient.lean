import Verif.Proof.PanicTls
import Verif.Spec.PanicTls
/-!
# Panics of the TLS client: the functions of the client
-/
namespace Verif.Tls
open Verif Hl
open _root_.Verif.Spec (NoPanic Device StatusTcp PortUnique Unconnected NothingBeforeCon TlsAsserts)

/-- What one call of `process` is made with. -/
structure PCfg (σ : Type) where
  z : Prop
  dbg : Bool
  b : Bus σ
  sn : Sn
  port : UInt16
  host : Bytes
  identity : Bytes
  n : Nat
  secs : UInt32

structure PCfg.Ok {σ : Type} (q : PCfg σ) : Prop where
  dev : q.z → Device q.b
  n22 : 22 ≤ q.n
  n16 : q.n ≤ 16384
  host : q.host.length < 256
  fits : q.z → 234 + q.host.length + q.identity.length ≤ q.n

/-- The debug assertions about the socket hold. -/
def PCfg.Tcp {σ : Type} (q : PCfg σ) : Prop := q.z → q.dbg = true → StatusTcp q.b q.sn

variable {σ S : Type} {x : Crypto} {ε α : Type}

/-- What always holds. -/
structure PB (q : PCfg σ) (k : Nat) (c : Client x) : Prop where
  sn : c.sn = q.sn
  port : c.srcPort = q.port
  host : c.hostname = q.host
  identity : c.identity = q.identity
  size : q.z → c.rx.buf.length = q.n
  rs : c.ks.readSeq.toNat ≤ k
  ws : c.ks.writeSeq.toNat ≤ k
  clock : q.z → q.dbg = true → ∀ t, c.timeout = some t → t ≤ q.secs

/-- The buffer is clean too. -/
def Pon (q : PCfg σ) (k j : Nat) (c : Client x) : Prop := PB q k c ∧ (q.z → Clean q.n j c.rx)

/-- The connection has been given up. -/
def POff (q : PCfg σ) (k : Nat) (c : Client x) : Prop := PB q k c ∧ Unconnected c.state

/-- Between the calls. -/
def PI (q : PCfg σ) (k : Nat) (c : Client x) : Prop := PB q k c ∧ (q.z → Unconnected c.state ∨ Clean q.n 0 c.rx)

variable {q : PCfg σ} {k j : Nat}

theorem PB.mono {c : Client x} (h : PB q k c) {k' : Nat} (hk : k ≤ k') : PB q k' c :=
  ⟨h.sn, h.port, h.host, h.identity, h.size, Nat.le_trans h.rs hk, Nat.le_trans h.ws hk, h.clock⟩

theorem PB.withRx {c : Client x} (h : PB q k c) {rx : Buffer} (hr : q.z → rx.buf.length = q.n) : PB q k { c with rx } :=
  ⟨h.sn, h.port, h.host, h.identity, hr, h.rs, h.ws, h.clock⟩

theorem PB.withKs {c : Client x} (h : PB q k c) {ks : KeySchedule x} (h1 : ks.readSeq.toNat ≤ k) (h2 : ks.writeSeq.toNat ≤ k) :
    PB q k { c with ks } :=
  ⟨h.sn, h.port, h.host, h.identity, h.size, h1, h2, h.clock⟩

theorem PB.to {c : Client x} (h : PB q k c) (state : TState) : PB q k (c.setStateWithTimeout state q.secs) :=
  ⟨h.sn, h.port, h.host, h.identity, h.size, h.rs, h.ws, fun _ _ t e => by injection e with e; rw [← e]; exact UInt32.le_refl _⟩

theorem PB.to' {c : Client x} (h : PB q k c) (state : TState) : PB q k (c.setState state) :=
  ⟨h.sn, h.port, h.host, h.identity, h.size, h.rs, h.ws, fun _ _ _ e => nomatch e⟩

theorem PB.resetKeys {c : Client x} (h : PB q k c) : PB q k c.resetKeys := h.withKs (Nat.zero_le _) (Nat.zero_le _)

theorem PB.reset {c : Client x} (h : PB q k c) : POff q k c.reset := ⟨h.resetKeys.to' _, .inl rfl⟩

theorem Pon.withRx {c : Client x} (h : Pon q k j c) {j' : Nat} {rx : Buffer} (hr : q.z → Clean q.n j' rx) : Pon q k j' { c with rx } :=
  ⟨h.1.withRx fun hz => (hr hz).size, hr⟩

theorem Pon.mono {c : Client x} (h : Pon q k j c) {j' : Nat} (hj : j' ≤ j) : Pon q k j' c := ⟨h.1, fun hz => (h.2 hz).mono hj⟩

/-! ## Rules -/

section rules
variable {z : Prop} {P : Client x → Prop}

theorem TP.getC_bind {P : σ × Client x → Prop} {Q : α → σ × Client x → Prop} {E : σ × Client x → Prop}
    {f : Client x → X ε (σ × Client x) α} (h : ∀ c, (∃ s, P (s, c)) → TP z (fun s => P s ∧ s.2 = c) (f c) Q E) :
    TP z P (getC >>= f) Q E := fun s hs => h s.2 ⟨s.1, hs⟩ s ⟨hs, rfl⟩

theorem TP.modC {P : σ × Client x → Prop} {R : Unit → σ × Client x → Prop} {E : σ × Client x → Prop} {f : Client x → Client x}
    (h : ∀ s c, P (s, c) → R () (s, f c)) : TP z P (modC f : X ε (σ × Client x) Unit) R E := fun s hs => h s.1 s.2 hs

theorem TP.onBus {m : M σ α} (h : z → Ok m) : TP z (L2 P) (onBus m : X _ (σ × Client x) α) (fun _ => L2 P) (L2 P) :=
  (TP.onFst (TP.internal (NPV.of h))).post fun _ _ h => h.1

theorem TP.onHlV {V : α → Prop} {m : M σ α} (h : NPV z V m) :
    TP z (L2 P) (onHl m : X _ (σ × Client x) α) (fun a s => P s.2 ∧ (z → V a)) (L2 P) := TP.onFst ((TP.ofM h).mapErr _)

theorem TP.onHl {m : M σ α} (h : z → Ok m) : TP z (L2 P) (onHl m : X _ (σ × Client x) α) (fun _ => L2 P) (L2 P) :=
  (TP.onHlV (NPV.of h)).post fun _ _ h => h.1

/-- A call of the device, when the state is known. -/
theorem TP.onBus_eq {m : M σ α} (h : z → Ok m) (s0 : σ × Client x) :
    TP z (fun u => u = s0) (Verif.Tls.onBus m : X _ (σ × Client x) α) (fun a s => m s0.1 = (.ok a, s.1) ∧ s.2 = s0.2)
      (fun s => (m s0.1).2 = s.1 ∧ (∃ e, (m s0.1).1 = .error e) ∧ s.2 = s0.2) := by
  rintro s rfl
  have := fun hz => (NPV.of h) hz s.1
  unfold Verif.Tls.onBus Verif.Tls.internal X.onFst X.mapErr X.ofM
  rcases hm : m s.1 with ⟨e | a, s'⟩ <;> simp only [hm] at this
  · cases e
    case panic => exact fun hz => absurd rfl (this hz).1
    case hang => exact fun _ h => nomatch h
    all_goals exact ⟨rfl, ⟨_, rfl⟩, rfl⟩
  · exact ⟨rfl, rfl⟩

theorem TP.onRx {m : X ε (σ × Buffer) α} {PBu EBu : Buffer → Prop} {QBu : α → Buffer → Prop} {Q : α → Client x → Prop}
    {E : Client x → Prop} (h : TP z (L2 PBu) m (fun a s => QBu a s.2) (L2 EBu)) (hP : ∀ c, P c → PBu c.rx)
    (hQ : ∀ c a rx, P c → QBu a rx → Q a { c with rx }) (hE : ∀ c rx, P c → EBu rx → E { c with rx }) :
    TP z (L2 P) (onRx m : X ε (σ × Client x) α) (fun a => L2 (Q a)) (L2 E) := by
  intro s hs
  have := h (s.1, s.2.rx) (hP _ hs)
  unfold Verif.Tls.onRx
  rcases hm : m (s.1, s.2.rx) with ⟨(e | e | _) | a, s'⟩ <;> rw [hm] at this
  · exact hE _ _ hs this
  · exact this
  · trivial
  · exact hQ _ _ _ hs this

end rules

/-! ## Sending -/

theorem tp_writeChunks {z : Prop} {b : Bus σ} (hb : z → Device b) (n : Nat) : ∀ g r data i, GC g i → i + n < 65534 →
    TP z (fun _ => True) (writeChunks b n g r data) (fun v _ => GC v.1 (i + n)) (fun _ => True) := by
  induction n with
  | zero => intro g r data i h _; exact TP.pure _ fun _ _ => h
  | succ n ih =>
    intro g r data i h hi
    obtain ⟨o, g', e, hg⟩ := h.encrypt (by omega) (toBlock (data.take 16))
    unfold writeChunks
    rw [e]
    refine TP.bind (R := fun v _ => v = (o, g')) (TP.ofCipher (fun _ _ _ h => nomatch h) fun a ha _ _ => by injection ha with ha; exact ha.symm)
      fun v => ?_
    refine TP.of_fact (p := v = (o, g')) (fun _ h => h) fun hv => ?_
    subst hv
    refine TP.bind (R := fun _ _ => True) ((TP.ofM (NPV.of fun hz => fine_writerWriteAll (hb hz) r _)).conseq (fun _ _ => trivial)
      (fun _ _ _ => trivial) fun _ h => h) fun r' => ?_
    have := ih g' r' (data.drop 16) (i + 1) hg (by omega)
    rw [show i + 1 + n = i + (n + 1) by omega] at this
    exact this

theorem tp_ofM_ok {z : Prop} {m : M σ α} (h : z → Ok m) : TP z (fun _ => True) (X.ofM m) (fun _ _ => True) (fun _ => True) :=
  (TP.ofM (NPV.of h)).post fun _ _ _ => trivial

theorem tp_lastChunk {z : Prop} {b : Bus σ} (hb : z → Device b) (ct : ContentType) (rem : Bytes) (hd : rem.length + 1 ≤ 16) (g : Aes128Gcm)
    (i : Nat) (hg : GC g i) (hi : i < 65534) (r : Ptrs) :
    TP z (fun _ => True) (ofCipher (g.encryptRemainder (toBlock (rem ++ [ct.code])) (rem.length + 1)) >>= fun (block, g) =>
      X.ofM (writerWriteAll b r (block.toList.take (rem.length + 1))) >>= fun r =>
      X.ofM (writerWriteAll b r g.finish.toList) >>= fun r => X.ofM (writerSend b r)) (fun _ _ => z → True) (fun _ => True) := by
  generalize toBlock (rem ++ [ct.code]) = blk
  have : ∃ v, g.encryptRemainder blk (rem.length + 1) = .ok v := by
    obtain ⟨o, g', e, -⟩ := hg.encryptRemainder hi blk hd
    exact ⟨_, e⟩
  obtain ⟨v, e⟩ := this
  generalize g.encryptRemainder blk (rem.length + 1) = w at e
  subst e
  refine TP.bind (R := fun _ _ => True) (TP.ofCipher (fun _ _ _ => by nofun) fun _ _ _ _ => trivial) fun v => ?_
  obtain ⟨o, g⟩ := v
  have w : ∀ r d, TP z (fun _ => True) (X.ofM (writerWriteAll b r d)) (fun _ _ => True) (fun _ => True) := fun r d =>
    tp_ofM_ok fun hz => fine_writerWriteAll (hb hz) r d
  dsimp only
  generalize g.finish.toList = fin
  refine (w _ _).bind fun r => (w r fin).bind fun r => ?_
  exact (tp_ofM_ok fun hz => fine_writerSend (hb hz) _).post fun _ _ _ _ => trivial

theorem tp_sendEncryptedRecord {z : Prop} {b : Bus σ} (hb : z → Device b) (sn : Sn) (kn) (ct : ContentType) (data : Bytes)
    (hd : data.length < 65519) :
    TP z (fun _ => True) (sendEncryptedRecord b sn kn ct data) (fun _ _ => z → True) (fun _ => True) := by
  unfold sendEncryptedRecord
  rw [if_neg (by omega)]
  dsimp only
  generalize RecordHeader.ser .applicationData (UInt16.ofNat (data.length + 16 + 1)) = header
  have h1 : (data.drop (data.length / 16 * 16)).length + 1 ≤ 16 := by rw [List.length_drop]; omega
  have h2 : 0 + data.length / 16 < 65534 := by omega
  generalize data.drop (data.length / 16 * 16) = rem at h1
  generalize data.length / 16 = cnt at h2
  refine TP.bind (R := fun _ _ => True) (tp_ofM_ok fun hz => fine_socketWriter (hb hz) _) fun _ => ?_
  refine TP.bind (R := fun _ _ => True) (tp_ofM_ok fun hz => fine_writerWriteAll (hb hz) _ _) fun r => ?_
  refine TP.bind (R := fun _ _ => True) (TP.unwrap fun _ _ _ _ => trivial) fun kn => ?_
  refine TP.bind (R := fun v _ => GC v.1 (0 + cnt)) (tp_writeChunks hb cnt (Aes128Gcm.new kn.1 kn.2 header) r data 0 (GC.new _ _ _) h2) fun v => ?_
  obtain ⟨g, r'⟩ := v
  exact TP.of_fact (p := GC g (0 + cnt)) (fun _ h => h) fun hg => TP.pre (P := fun _ => True) (tp_lastChunk hb ct rem h1 g _ hg h2 r')
    fun _ _ => trivial

theorem tp_sendRecord (ho : q.Ok) (ct : ContentType) (data : Bytes) (hd : data.length < 65519) (P : Client x → Prop) :
    TP q.z (L2 P) (sendRecord q.b ct data : X Err (σ × Client x) Unit) (fun _ => L2 P) (L2 P) := by
  refine TP.getC_bind fun c _ => TP.pre (P := L2 P) ?_ fun _ h => h.1
  exact (TP.onFst (tp_sendEncryptedRecord ho.dev c.sn _ ct data hd)).post fun _ _ h => h.1

theorem tp_trySendAlert (ho : q.Ok) (level : AlertLevel) (d : AlertDescription) (P : Client x → Prop) :
    TP q.z (L2 P) (trySendAlert q.b level d : X _ (σ × Client x) Unit) (fun _ => L2 P) (L2 P) := by
  refine TP.getC_bind fun c _ => TP.pre (P := L2 P) ?_ fun _ h => h.1
  refine TP.ite (fun _ => (tp_sendRecord ho _ _ (by show 2 < 65519; omega) P).mapErr _) fun _ => ?_
  exact (TP.onBus fun hz => fine_socketWriter (ho.dev hz) _).bind fun r =>
    (TP.onHl fun hz => fine_writerWriteAll (ho.dev hz) _ _).bind fun _ => TP.onBus fun hz => fine_writerSend (ho.dev hz) _

theorem tp_sendAlert (ho : q.Ok) (level : AlertLevel) (d : AlertDescription) {E : σ × Client x → Prop} :
    TP q.z (L2 (PB q k)) (sendAlert q.b level d q.secs : X ε (σ × Client x) Unit) (fun _ => L2 (POff q k)) E := by
  refine (TP.attempt (tp_trySendAlert ho level d (PB q k))).bind fun r => ?_
  refine TP.bind (R := fun _ => L2 (PB q k)) (TP.modC fun s c hc => ?_) fun _ => ?_
  · cases r <;> exact PB.resetKeys hc
  · cases r
    · exact TP.modC fun s c hc => ⟨(PB.resetKeys hc).to _, .inr (.inr (.inr (.inl rfl)))⟩
    · exact TP.modC fun s c hc => ⟨(PB.resetKeys hc).to _, .inr (.inr (.inl rfl))⟩

theorem tp_failFatal (ho : q.Ok) (d : AlertDescription) {Q : α → σ × Client x → Prop} :
    TP q.z (L2 (PB q k)) (failFatal q.b d q.secs : X TErr (σ × Client x) α) Q (L2 (POff q k)) :=
  (tp_sendAlert ho _ d).bind fun _ => TP.throw _ fun _ h => h

theorem tp_orFatal (ho : q.Ok) {m : X AlertDescription (σ × Client x) α} {P : σ × Client x → Prop} {Q : α → σ × Client x → Prop}
    (h : TP q.z P m Q (L2 (PB q k))) : TP q.z P (orFatal q.b q.secs m) Q (L2 (POff q k)) := by
  refine (TP.attempt h).bind fun r => ?_
  cases r
  · exact tp_failFatal ho _
  · exact TP.pure _ fun _ h => h

/-! ## Receiving -/

theorem tp_recvChangeCipherSpec (header : RecordHeader) (hj : header.length = 1 → 1 ≤ j) :
    TP q.z (L2 (Pon q k j)) (recvChangeCipherSpec header : X _ (σ × Client x) Unit) (fun _ => L2 (Pon q k 0)) (L2 (PB q k)) := by
  refine TP.ite (fun _ => TP.throw _ fun _ h => h.1) fun hl => ?_
  rw [Decidable.not_not] at hl
  have hj := hj hl
  refine TP.bind (R := fun _ => L2 (Pon q k 0)) ?_ fun byte => ?_
  · exact TP.onRx (QBu := fun v b => CB q.z q.n 0 b ∧ (q.z → v ≠ none)) (tp_popTail q.n 0 (E := fun _ => False)) (fun c h hz => (h.2 hz).mono hj) (fun c a rx h hr => h.withRx hr.1)
      (fun c rx h f => (f : False).elim)
  · cases byte
    · exact TP.throw _ fun _ h => h.1
    · exact TP.ite (fun _ => TP.throw _ fun _ h => h.1) fun _ => TP.pure _ fun _ h => h

theorem np_tcpReader (ho : q.Ok) (ht : q.Tcp) : NPV q.z (fun _ => True) (tcpReader q.dbg q.b q.sn) :=
  fun hz s => ⟨(tcpReader_at (ho.dev hz) (ht hz) s).1, fun _ _ => trivial⟩

theorem fine_tcpReaderReadExact {b : Bus σ} (hb : Device b) (r : Ptrs) (n : Nat) :
    FineM (fun v => v.1.length = n) (tcpReaderReadExact b r n) := by
  unfold tcpReaderReadExact
  dsimp only
  refine FineM.ite (FineM.throw ⟨by nofun, by nofun⟩) ?_
  exact FineM.bind (fine_snRxBuf hb _ _ _) fun a ha => FineM.pure ha

theorem limit_nat (ho : q.Ok) (hz : q.z) {c : Client x} (h : PB q k c) : c.recordSizeLimit.toNat = q.n - 22 := by
  unfold Client.recordSizeLimit
  have h1 := ho.n22; have h2 := ho.n16
  rw [show c.rx.n = q.n from h.size hz]
  have e : (UInt16.ofNat q.n).toNat = q.n := by rw [UInt16.toNat_ofNat']; omega
  rw [u16_sub_toNat, u16_sub_toNat, u16_sub_toNat, e]
  show ((((q.n + 65536 - 16) % 65536) + 65536 - 5) % 65536 + 65536 - 1) % 65536 = _
  omega

/-- A header that was accepted. -/
def GoodHeader (q : PCfg σ) (h : RecordHeader) : Prop := h.contentType ≠ none ∧ (q.z → h.length.toNat ≤ q.n - 22)

theorem deser_type {h h' : RecordHeader} (e : RecordHeader.deser h = .ok h') : h'.contentType ≠ none := by
  unfold RecordHeader.deser at e
  split at e
  · rename_i ct hc
    injection e with e
    subst e
    unfold RecordHeader.contentType
    rw [hc]; nofun
  · exact nomatch e

theorem deser_stop (h : RecordHeader) : RecordHeader.deser h ≠ .error (.stop .panic) := by
  unfold RecordHeader.deser
  split <;> nofun

theorem tp_recvHeader (ho : q.Ok) (ht : q.Tcp) :
    TP q.z (L2 (Pon q k 0)) (recvHeader q.dbg q.b : X _ (σ × Client x) _)
      (fun v s => Pon q k 0 s.2 ∧ ∀ h, v = some h → GoodHeader q h) (L2 (PB q k)) := by
  refine TP.getC_bind fun c ⟨s, hc⟩ => TP.conseq (P := L2 (Pon q k 0)) (E := L2 (Pon q k 0)) ?_ (fun _ h => h.1) (fun _ _ h => h) fun _ h => h.1
  rw [hc.1.sn]
  refine TP.bind (R := fun _ => L2 (Pon q k 0)) ((TP.onHlV (np_tcpReader ho ht)).post fun _ _ h => h.1) fun r =>
    TP.bind (R := fun _ => L2 (Pon q k 0)) ((TP.onHlV (NPV.of fun hz => fine_tcpReaderReadExact (ho.dev hz) r 5)).post fun _ _ h => h.1)
    fun v => ?_
  obtain ⟨buf, r⟩ := v
  refine TP.bind (R := fun h s => Pon q k 0 s.2 ∧ h.contentType ≠ none) ?_ fun h => ?_
  · exact TP.ofExcept (fun _ _ _ => deser_stop _) (fun a ha _ ht => ⟨ht, deser_type ha⟩) fun _ h => h
  refine TP.ite (fun _ => TP.throw _ fun _ h => h.1) fun hl => TP.ite (fun _ => TP.pure _ fun _ h => ⟨h.1, fun _ h => nomatch h⟩) fun _ => ?_
  refine TP.bind (R := fun _ s => Pon q k 0 s.2 ∧ h.contentType ≠ none)
    ((TP.onBus (P := fun c => Pon q k 0 c ∧ h.contentType ≠ none) fun hz => fine_tcpReaderDone (ho.dev hz) _).postE fun _ h => h.1) fun _ => ?_
  refine TP.pure _ fun _ h' => ⟨h'.1, fun h'' e => ?_⟩
  injection e with e
  subst e
  refine ⟨h'.2, fun hz => ?_⟩
  rw [← limit_nat ho hz hc.1]
  rw [gt_iff_lt, UInt16.lt_iff_toNat_lt] at hl
  exact Nat.le_of_not_lt hl

theorem tp_recvBodyLoop (ho : q.Ok) (fuel : Nat) : ∀ r remain j,
    TP q.z (L2 (Pon q k j)) (recvBodyLoop q.dbg q.b fuel r remain : X _ (σ × Client x) _) (fun _ => L2 (Pon q k (j + remain)))
      (L2 (PB q k)) := by
  induction fuel with
  | zero => intros; exact TP.hang
  | succ fuel ih =>
    intro r remain j
    unfold recvBodyLoop
    dsimp only
    refine TP.ite (fun h0 => TP.pure _ fun _ h => ?_) fun h0 => ?_
    · have : remain = 0 := by omega
      subst this; exact h
    refine TP.bind (R := fun v s => Pon q k j s.2 ∧ (q.z → v.1.length = min remain 64)) ((TP.onHlV
      (NPV.of fun hz => fine_tcpReaderReadExact (ho.dev hz) r _)).postE fun _ h => h.1) fun v => ?_
    obtain ⟨buf, r'⟩ := v
    refine TP.bind (R := fun _ => L2 (Pon q k (j + min remain 64))) ?_ fun _ => ?_
    · refine TP.of_fact (p := q.z → buf.length = min remain 64) (fun _ h => h.2) fun hl => TP.pre (P := L2 (Pon q k j)) ?_ fun _ h => h.1
      refine TP.onRx (tp_extend q.n j q.dbg buf) (fun c h => h.2) (fun c a rx h hr => h.withRx fun hz => ?_)
        (fun c rx h hr => (h.withRx hr).1)
      have := hr hz; rwa [hl hz] at this
    · have := ih r' (remain - min remain 64) (j + min remain 64)
      rw [show j + min remain 64 + (remain - min remain 64) = j + remain by omega] at this
      exact this

theorem tp_recvUnencryptedBody (ho : q.Ok) (ht : q.Tcp) (header : RecordHeader) :
    TP q.z (L2 (Pon q k 0)) (recvUnencryptedBody q.dbg q.b header : X _ (σ × Client x) _) (fun _ => L2 (Pon q k header.length.toNat))
      (L2 (PB q k)) := by
  refine TP.getC_bind fun c ⟨s, hc⟩ => TP.pre (P := L2 (Pon q k 0)) ?_ (fun _ h => h.1)
  rw [hc.1.sn]
  refine TP.bind (R := fun _ => L2 (Pon q k 0)) ((TP.onHlV (np_tcpReader ho ht)).conseq (fun _ h => h) (fun _ _ h => h.1) fun _ h => h.1)
    fun r => ?_
  have := tp_recvBodyLoop (x := x) (k := k) ho (header.length.toNat + 1) r header.length.toNat 0
  rw [Nat.zero_add] at this
  exact this.bind fun _ => (TP.onBus fun hz => fine_tcpReaderDone (ho.dev hz) _).postE fun _ h => h.1

theorem tp_recvEncryptedBody (ho : q.Ok) (header : RecordHeader) (hh : GoodHeader q header) :
    TP q.z (L2 (Pon q k 0)) (recvEncryptedBody q.dbg q.b q.secs header : X _ (σ × Client x) _)
      (fun _ s => Pon q k (header.length.toNat - 17) s.2 ∧ 17 ≤ header.length.toNat) (L2 (POff q k)) := by
  refine TP.getC_bind fun c _ => TP.pre (P := L2 (Pon q k 0)) ?_ (fun _ h => h.1)
  cases c.ks.serverKeyAndNonce with
  | none => exact (tp_failFatal ho _).pre fun _ h => h.1
  | some kn =>
    have h16 := ho.n16
    refine TP.bind (R := fun _ s => Pon q k (header.length.toNat - 17) s.2 ∧ 17 ≤ header.length.toNat) (tp_orFatal ho ?_) fun ct => ?_
    · exact TP.onRx (QBu := fun _ b => CB q.z q.n (header.length.toNat - 17) b ∧ 17 ≤ header.length.toNat)
        (Q := fun _ c => Pon q k (header.length.toNat - 17) c ∧ 17 ≤ header.length.toNat)
        (tp_decryptRecord ho.dev q.n q.dbg _ _ _ header fun hz => by have := hh.2 hz; omega)
        (fun c h => h.2) (fun c a rx h hr => ⟨h.withRx hr.1, hr.2⟩) (fun c rx h hr => (h.withRx hr).1)
    · cases ct
      · exact (tp_failFatal ho _).pre fun _ h => h.1.1
      · exact TP.pure _ fun _ h => h

/-- The bytes that were stored. -/
def Stored (header : RecordHeader) (outer : ContentType) (j : Nat) : Prop :=
  if outer = .applicationData then j = header.length.toNat - 17 ∧ 17 ≤ header.length.toNat else j = header.length.toNat

theorem tp_recvBody (ho : q.Ok) (ht : q.Tcp) (header : RecordHeader) (hh : GoodHeader q header) (outer : ContentType) :
    TP q.z (L2 (Pon q k 0)) (recvBody q.dbg q.b q.secs header outer : X _ (σ × Client x) _)
      (fun _ s => ∃ j, Pon q k j s.2 ∧ Stored header outer j) (L2 (POff q k)) := by
  refine TP.ite (fun ha => (tp_recvEncryptedBody ho header hh).post fun _ _ h => ⟨_, h.1, ?_⟩) fun ha => ?_
  · unfold Stored; rw [if_pos ha]; exact ⟨rfl, h.2⟩
  · refine (tp_orFatal ho (tp_recvUnencryptedBody ho ht header)).bind fun _ => TP.pure _ fun _ h => ⟨_, h, ?_⟩
    unfold Stored; rw [if_neg ha]

/-- The buffer is clean unless the record has application data. -/
def PonCt (q : PCfg σ) (k j : Nat) (ct : ContentType) (c : Client x) : Prop :=
  PB q k c ∧ (ct ≠ .applicationData → q.z → Clean q.n j c.rx)

theorem tp_countAppData (ho : q.Ok) (header : RecordHeader) (hh : GoodHeader q header) (ct : ContentType) {E : σ × Client x → Prop} :
    TP q.z (L2 (Pon q k j)) (countAppData q.dbg header ct : X _ (σ × Client x) _) (fun _ => L2 (PonCt q k j ct)) E := by
  refine TP.ite (fun ha => TP.getC_bind fun c ⟨s, hc⟩ => ?_) fun ha => TP.pure _ fun _ h => ⟨h.1, fun _ => h.2⟩
  refine TP.bind (R := fun rx s => Pon q k j s.2 ∧ (q.z → rx.buf.length = q.n)) (TP.ofCipher ?_ ?_) fun rx => TP.modC ?_
  · rintro t ⟨-, -⟩ hz
    have h1 := hc.1.size hz
    have h2 := hh.2 hz
    have h3 := ho.n22
    unfold Buffer.incrementApplicationDataTail
    rw [if_neg]
    · nofun
    · rintro ⟨-, h⟩
      unfold Buffer.capacity at h
      rw [show c.rx.n = q.n from h1] at h
      omega
  · rintro a e t ⟨h, -⟩
    refine ⟨h, fun hz => ?_⟩
    unfold Buffer.incrementApplicationDataTail at e
    split at e
    · exact nomatch e
    · injection e with e
      rw [← e]
      exact hc.1.size hz
  · intro s c h
    exact ⟨h.1.1.withRx h.2, fun h => absurd ha h⟩

/-! ## Handshake messages -/

theorem tp_popHandshake :
    TP q.z (L2 (Pon q k 0)) (popHandshake : X _ (σ × Client x) _)
      (fun m s => Pon q k 0 s.2 ∧ ∀ hdr r, m = some (hdr, r) → q.z → CRel r (r.a ++ r.b) 0 ∧ (r.a ++ r.b).length + 5 ≤ q.n ∧ r = .new r.a r.b ∨ 16384 < q.n)
      (L2 (PB q k)) := by
  refine TP.getC_bind fun c ⟨s, hc⟩ => ?_
  refine TP.bind (R := fun m s => Pon q k 0 s.2 ∧ c.rx.popHandshakeRecord = .ok m) (TP.ofExcept ?_ ?_ fun _ h => h.1.1) fun m => ?_
  · rintro t - hz; exact (hc.2 hz).pop.1
  · intro a ha t ht; exact ⟨ht.1, ha⟩
  match m with
  | none => exact TP.pure _ fun _ h => ⟨h.1, fun _ _ h => nomatch h⟩
  | some ((hdr, r), rx) =>
    refine TP.bind (R := fun _ s => Pon q k 0 s.2 ∧ c.rx.popHandshakeRecord = .ok (some ((hdr, r), rx))) (TP.modC ?_) fun _ => TP.pure _ ?_
    · rintro s c' ⟨h1, h2⟩
      exact ⟨h1.withRx fun hz => (hc.2 hz).pop.2 _ _ _ h2, h2⟩
    · rintro s ⟨h1, h2⟩
      refine ⟨h1, fun hdr' r' e hz => ?_⟩
      injection e with e; injection e with e1 e2; subst e1 e2
      have hc := hc.2 hz
      have hr := hc.room; have ht := hc.tail; have hh := hc.head; have ha := hc.ad
      obtain ⟨-, ⟨a, d, e, h3⟩, h4⟩ := (BOk.pop ⟨hc.size, by omega, ht, by omega⟩ h2)
      by_cases hn : 16384 < q.n
      · exact .inr hn
      · subst e
        refine .inl ⟨⟨rfl, rfl, Nat.zero_le _, ?_⟩, ?_, rfl⟩
        · show (a ++ d).length ≤ 32767; omega
        · show (a ++ d).length + 5 ≤ q.n; omega

theorem ends_np {r : Res α} (h : Ends r) : r ≠ .error (.stop .panic) := by
  rcases h with ⟨a, rfl⟩ | ⟨e, rfl⟩ <;> nofun

theorem tp_onHandshake (secs : UInt32) (hs : secs = q.secs) (hash : Bytes) (header : HandshakeHeader) (r : CircleReader)
    (hr : q.z → CRel r (r.a ++ r.b) 0 ∧ (r.a ++ r.b).length + 5 ≤ 16384 ∧ r = .new r.a r.b) :
    TP q.z (L2 (Pon q k 0)) (onHandshake 65536 secs hash header r : X _ (σ × Client x) Unit) (fun _ => L2 (Pon q k 0)) (L2 (PB q k)) := by
  subst hs
  have ht : ∀ e, TP q.z (L2 (Pon q k 0)) (X.throw e : X AlertDescription (σ × Client x) Unit) (fun _ => L2 (Pon q k 0)) (L2 (PB q k)) :=
    fun e => TP.throw _ fun _ h => h.1
  unfold onHandshake
  split
  · exact ht _
  · refine TP.getC_bind fun c ⟨s, hc⟩ => TP.pre (P := L2 (Pon q k 0)) ?_ (fun _ h => h.1)
    refine TP.ite (fun _ => ht _) fun _ => ?_
    refine TP.bind (R := fun _ => L2 (Pon q k 0)) (TP.ofExcept (fun _ _ hz => ?_) (fun _ _ _ h => h) fun _ h => h.1) fun p => ?_
    · obtain ⟨h1, h2, h3⟩ := hr hz
      rw [h3]
      exact ends_np (C58_server_hello_parse_ends x.sec1 r.a r.b (by omega) 65536 (by omega))
    · refine TP.bind (R := fun ks s => Pon q k 0 s.2 ∧ ks.readSeq = 0 ∧ ks.writeSeq = 0) (TP.unwrap fun ks e t ht => ⟨ht, ?_⟩) fun ks => ?_
      · unfold KeySchedule.initializeHandshakeSecret at e
        dsimp only at e
        split at e
        · exact nomatch e
        · injection e with e; rw [← e]; exact ⟨rfl, rfl⟩
      · refine TP.modC ?_
        rintro s c ⟨h, h1, h2⟩
        exact ⟨(h.1.withKs (by rw [h1]; exact Nat.zero_le _) (by rw [h2]; exact Nat.zero_le _)).to _, h.2⟩
  · refine TP.getC_bind fun c ⟨s, hc⟩ => TP.pre (P := L2 (Pon q k 0)) ?_ (fun _ h => h.1)
    exact TP.ite (fun _ => ht _) fun _ => TP.pure _ fun _ h => h
  · exact ht _
  · refine TP.getC_bind fun c ⟨s, hc⟩ => TP.pre (P := L2 (Pon q k 0)) ?_ (fun _ h => h.1)
    refine TP.ite (fun _ => ht _) fun _ => ?_
    refine TP.bind (R := fun _ => L2 (Pon q k 0)) (TP.ofExcept (fun _ _ hz => ?_) (fun _ _ _ h => h) fun _ h => h.1) fun _ =>
      TP.modC fun s c h => ⟨h.1.to _, h.2⟩
    obtain ⟨h1, h2, h3⟩ := hr hz
    rw [h3]
    rcases (C58_encrypted_extensions_accepted_iff r.a r.b (by omega) 65536 (by omega)).2 with e | ⟨k, e⟩ <;> rw [e] <;> nofun
  · exact ht _
  · exact ht _
  · exact ht _
  · refine TP.getC_bind fun c ⟨s, hc⟩ => TP.pre (P := L2 (Pon q k 0)) ?_ (fun _ h => h.1)
    refine TP.ite (fun _ => ht _) fun _ => TP.ite (fun _ => ht _) fun _ => ?_
    refine TP.bind (R := fun _ => L2 (Pon q k 0)) (TP.ofExcept (fun _ _ hz => ends_np ((hr hz).1.ends_readExact 32)) (fun _ _ _ h => h)
      fun _ h => h.1) fun v => ?_
    refine TP.bind (R := fun _ => L2 (Pon q k 0)) (TP.ofExcept (fun _ _ hz => ?_) (fun _ _ _ h => h)
      fun _ h => h.1) fun _ => TP.modC fun s c h => ⟨h.1.to _, h.2⟩
    unfold KeySchedule.verifyServerFinished
    split
    · nofun
    · split <;> nofun
  · refine TP.getC_bind fun c ⟨s, hc⟩ => TP.pre (P := L2 (Pon q k 0)) ?_ (fun _ h => h.1)
    refine TP.ite (fun _ => ht _) fun _ => TP.ite (fun _ => ht _) fun _ => ?_
    refine TP.bind (R := fun _ => L2 (Pon q k 0)) (TP.ofExcept (fun _ _ hz => ends_np (hr hz).1.ends_u8) (fun _ _ _ h => h)
      fun _ h => h.1) fun v => ?_
    dsimp only
    split
    · exact TP.pure _ fun _ h => h
    · exact TP.modC fun s c h => ⟨h.1.withKs (Nat.zero_le _) (Nat.zero_le _), h.2⟩
    · exact ht _
  · exact ht _

theorem tp_recvHandshake (ho : q.Ok) (fuel : Nat) :
    TP q.z (L2 (Pon q k 0)) (recvHandshake q.secs fuel : X _ (σ × Client x) Unit) (fun _ => L2 (Pon q k 0)) (L2 (PB q k)) := by
  have hn := ho.n16
  induction fuel with
  | zero => exact TP.hang
  | succ fuel ih =>
    refine tp_popHandshake.bind fun m => ?_
    match m with
    | none => exact TP.pure _ fun _ h => h.1
    | some (hdr, r) =>
      refine TP.getC_bind fun c ⟨s, hc⟩ => TP.pre (P := L2 (Pon q k 0)) ?_ (fun _ h => h.1.1)
      have hr := hc.2 hdr r rfl
      refine (tp_onHandshake q.secs rfl _ hdr r fun hz => ?_).bind fun _ => TP.bind (R := fun _ => L2 (Pon q k 0))
        (TP.modC fun s c h => ⟨h.1.withKs h.1.rs h.1.ws, h.2⟩) fun _ => ih
      rcases hr hz with ⟨h1, h2, h3⟩ | h
      · exact ⟨h1, by omega, h3⟩
      · omega

/-! ## Records -/

theorem tp_popTail_off {P : Client x → Prop} {E : σ × Client x → Prop}
    (hP : ∀ c rx, P c → rx.buf.length = c.rx.buf.length → P { c with rx }) {z : Prop} :
    TP z (L2 P) (onRx popTailRx : X ε (σ × Client x) (Option UInt8)) (fun _ => L2 P) E := by
  intro s hs
  unfold onRx popTailRx
  rcases e : s.2.rx.popTail with _ | ⟨y, rx⟩
  · exact hs
  · exact hP _ _ hs (popTail_size e)

theorem POff.withRx {c : Client x} (h : POff q k c) {rx : Buffer} (hr : rx.buf.length = c.rx.buf.length) : POff q k { c with rx } :=
  ⟨h.1.withRx fun hz => by rw [hr]; exact h.1.size hz, h.2⟩

theorem fine_tcpDisconnect' {b : Bus σ} (hb : Device b) {dbg : Bool} {sn : Sn} (h : dbg = true → StatusTcp b sn) :
    Ok (tcpDisconnect dbg b sn) := by
  have := fine_notUdp hb h
  have := fine_setSnCr hb
  unfold tcpDisconnect
  fine_tac

theorem tp_failAlert (ho : q.Ok) (ht : q.Tcp) (header : RecordHeader) {Q : α → σ × Client x → Prop} :
    TP q.z (L2 (PB q k)) (failAlert q.dbg q.b header : X _ (σ × Client x) α) Q (L2 (POff q k)) := by
  refine (TP.modC (R := fun _ => L2 (POff q k)) fun _ _ h => PB.reset h).bind fun _ => TP.ite (fun _ => ?_) fun _ => ?_
  · refine TP.bind (R := fun _ => L2 (POff q k)) (TP.modC fun _ c h => POff.withRx (c := c) h rfl) fun _ => TP.getC_bind fun c ⟨s, hc⟩ =>
      TP.pre (P := L2 (POff q k)) ?_ fun _ h => h.1
    rw [hc.1.sn]
    refine TP.bind (R := fun _ => L2 (POff q k)) ((TP.attempt (TP.onBus (P := POff q k)
      fun hz => fine_tcpDisconnect' (ho.dev hz) (ht hz))).post fun r t h => by cases r <;> exact h) fun _ => TP.throw _ fun _ h => h
  · refine (tp_popTail_off fun _ _ h hr => POff.withRx h hr).bind fun byte => ?_
    cases byte with
    | none =>
      exact TP.bind (R := fun _ => L2 (POff q k)) (TP.modC fun _ c h => POff.withRx (c := c) h rfl) fun _ => TP.throw _ fun _ h => h
    | some byte =>
      dsimp only
      split
      · exact TP.throw _ fun _ h => h
      · refine (tp_popTail_off fun _ _ h hr => POff.withRx h hr).bind fun byte =>
          TP.bind (R := fun _ => L2 (POff q k)) (TP.modC fun _ c h => POff.withRx (c := c) h rfl) fun _ => ?_
        cases byte <;> exact TP.throw _ fun _ h => h

/-- After a record. -/
def PEv (q : PCfg σ) (k : Nat) (ev : Option TEvent) (c : Client x) : Prop :=
  PB q k c ∧ (ev ≠ some .applicationData → q.z → Clean q.n 0 c.rx)

theorem tp_recvContent (ho : q.Ok) (fuel : Nat) (header : RecordHeader) (ct : ContentType) (hj : header.length = 1 → 1 ≤ j) :
    TP q.z (L2 (PonCt q k j ct)) (recvContent fuel q.b q.secs header ct : X _ (σ × Client x) _) (fun ev => L2 (PEv q k ev))
      (L2 (POff q k)) := by
  unfold recvContent
  split
  · exact ((tp_orFatal ho (tp_recvChangeCipherSpec header hj)).pre fun _ h => ⟨h.1, h.2 (by nofun)⟩).bind fun _ =>
      TP.pure _ fun _ h => ⟨h.1, fun _ => h.2⟩
  · exact ((tp_orFatal ho (tp_recvHandshake ho fuel)).pre fun _ h => ⟨h.1, fun hz => (h.2 (by nofun) hz).mono (Nat.zero_le _)⟩).bind
      fun _ => TP.pure _ fun _ h => ⟨h.1, fun _ => h.2⟩
  · refine TP.getC_bind fun c hc => TP.pre (P := L2 (PB q k)) ?_ fun _ h => h.1.1
    exact TP.ite (fun _ => TP.pure _ fun _ h => ⟨h, fun h => absurd rfl h⟩) fun _ => tp_failFatal ho _

theorem PB.countRead {c : Client x} (h : PB q k c) : PB q (k + 1) { c with ks := { c.ks with readSeq := c.ks.readSeq + 1 } } := by
  refine (h.mono (Nat.le_succ k)).withKs ?_ (Nat.le_trans h.ws (Nat.le_succ k))
  show (c.ks.readSeq + 1).toNat ≤ k + 1
  rw [UInt64.toNat_add]
  have := h.rs
  show (c.ks.readSeq.toNat + 1) % _ ≤ k + 1
  exact Nat.le_trans (Nat.mod_le _ _) (by omega)

theorem tp_countRead (outer : ContentType) {P Q : Client x → Prop} {E : σ × Client x → Prop} (hk : k + 1 < 2 ^ 64) {z : Prop}
    (hs : ∀ c, P c → c.ks.readSeq.toNat ≤ k)
    (hQ : ∀ c, P c → Q c ∧ Q { c with ks := { c.ks with readSeq := c.ks.readSeq + 1 } }) :
    TP z (L2 P) (countRead outer : X _ (σ × Client x) _) (fun _ => L2 Q) E := by
  refine TP.ite (fun _ => TP.getC_bind fun c ⟨s, hc⟩ => ?_) fun _ => TP.pure _ fun _ h => (hQ _ h).1
  have h := hs c hc
  have e : c.ks.incrementReadSeq = .ok { c.ks with readSeq := c.ks.readSeq + 1 } := by
    unfold KeySchedule.incrementReadSeq
    rw [if_pos (by omega)]
  rw [e]
  refine TP.bind (R := fun v s => s.2 = c ∧ v = { c.ks with readSeq := c.ks.readSeq + 1 }) (TP.ofCipher (fun _ _ _ h => nomatch h)
    fun a ha t ht => ⟨ht.2, by injection ha with ha; exact ha.symm⟩) fun v => TP.modC ?_
  rintro s c' ⟨rfl, rfl⟩
  exact (hQ _ hc).2

theorem tp_recvRecord (ho : q.Ok) (ht : q.Tcp) (hk : k + 1 < 2 ^ 64) (fuel : Nat) (header : RecordHeader) (outer ct : ContentType) (fragment : Bool)
    (hj : header.length = 1 → 1 ≤ j) :
    TP q.z (L2 (PonCt q k j ct)) (recvRecord q.dbg fuel q.b q.secs header outer ct fragment : X _ (σ × Client x) _)
      (fun ev => L2 (PEv q (k + 1) ev)) (L2 (POff q (k + 1))) := by
  have up : ∀ s : σ × Client x, L2 (POff q k) s → L2 (POff q (k + 1)) s := fun s h => ⟨h.1.mono (Nat.le_succ k), h.2⟩
  refine TP.ite (fun _ => ((tp_failFatal ho _).pre fun _ h => h.1).postE up) fun _ => TP.ite
    (fun _ => ((tp_failAlert ho ht header).pre fun _ h => h.1).postE up) fun _ => ?_
  refine (TP.attempt (tp_recvContent ho fuel header ct hj)).bind fun ret => ?_
  cases ret with
  | error e =>
    dsimp only
    exact (tp_countRead (P := POff q k) (Q := POff q (k + 1)) outer hk (fun c h => h.1.rs)
      fun c h => ⟨⟨h.1.mono (Nat.le_succ k), h.2⟩, h.1.countRead, h.2⟩).bind fun _ => TP.throw _ fun _ h => h
  | ok ev =>
    exact (tp_countRead (P := PEv q k ev) (Q := PEv q (k + 1) ev) outer hk (fun c h => h.1.rs)
      fun c h => ⟨⟨h.1.mono (Nat.le_succ k), h.2⟩, h.1.countRead, h.2⟩).bind fun _ =>
      show TP _ _ (Pure.pure ev) _ _ from TP.pure _ fun _ h => h

theorem tp_recv (ho : q.Ok) (ht : q.Tcp) (hk : k + 1 < 2 ^ 64) (fuel : Nat) :
    TP q.z (L2 (Pon q k 0)) (recv q.dbg fuel q.b q.secs : X _ (σ × Client x) _) (fun ev => L2 (PEv q (k + 1) ev)) (L2 (POff q (k + 1))) := by
  have up : ∀ s : σ × Client x, L2 (POff q k) s → L2 (POff q (k + 1)) s := fun s h => ⟨h.1.mono (Nat.le_succ k), h.2⟩
  refine ((tp_orFatal ho (tp_recvHeader ho ht)).postE up).bind fun header => ?_
  cases header with
  | none => exact TP.pure _ fun _ h => ⟨h.1.1.mono (Nat.le_succ k), fun _ => h.1.2⟩
  | some header =>
    refine TP.of_fact (p := GoodHeader q header) (fun _ h => h.2 _ rfl) fun hh => TP.pre (P := L2 (Pon q k 0)) ?_ fun _ h => h.1
    refine TP.getC_bind fun c hc => TP.pre (P := L2 (Pon q k 0)) ?_ fun _ h => h.1
    split
    · rename_i e; exact absurd e hh.1
    · rename_i outer _
      refine ((tp_recvBody ho ht header hh outer).postE up).bind fun ct => TP.of_eq fun t ⟨j, h1, h2⟩ => ?_
      refine TP.pre (P := L2 (Pon q k j)) ?_ fun u hu => by rw [hu]; exact h1
      refine (tp_countAppData ho header hh ct).bind fun _ => tp_recvRecord ho ht hk fuel header outer ct _ fun h => ?_
      have h' : header.length.toNat = 1 := by rw [h]; rfl
      unfold Stored at h2
      split at h2 <;> omega

/-! ## Connecting -/

theorem fine_setSnRxbufSize {b : Bus σ} (hb : Device b) (s : Sn) (v) : Ok (b.setSnRxbufSize s v) := by
  have := fine_write hb; unfold Bus.setSnRxbufSize; fine_tac

theorem tp_tlsTcpConnect (ho : q.Ok) (hu : q.z → q.dbg = true → PortUnique q.b q.sn q.port) (fuel : Nat) :
    TP q.z (L2 (PB q k)) (tlsTcpConnect q.dbg fuel q.b q.secs : X _ (σ × Client x) _) (fun _ => L2 (POff q k)) (L2 (PB q k)) := by
  refine TP.getC_bind fun c ⟨s, hc⟩ => TP.pre (P := L2 (PB q k)) ?_ fun _ h => h.1
  rw [hc.sn, hc.port]
  have d := ho.dev
  refine (TP.onBus fun hz => fine_close (d hz) _).bind fun _ => (TP.onBus fun hz => fine_setSnRxbufSize (d hz) _ _).bind fun _ =>
    (TP.onBus fun hz => fine_simr (d hz)).bind fun _ => (TP.onBus fun hz => fine_setSimr (d hz) _).bind fun _ =>
    (TP.onBus fun hz => fine_setSnImr (d hz) _ _).bind fun _ =>
    (TP.onBus fun hz => fine_tcpConnect (d hz) fuel _ (hu hz)).bind fun _ => ?_
  exact TP.bind (R := fun _ => L2 (POff q k)) (TP.modC fun s c h => ⟨PB.to h _, .inr (.inl rfl)⟩) fun _ => TP.pure _ fun _ h => h

theorem tp_makeHello (hx : x.Standard) (ho : q.Ok) (rng : Rng x) (hr : rng.Ok) :
    TP q.z (L2 (PB q k)) (makeHello q.dbg rng : X _ (σ × Client x) _) (fun _ => L2 (Pon q k 0)) (L2 (PB q k)) := by
  have h22 := ho.n22; have h16 := ho.n16
  refine TP.bind (R := fun _ => L2 (Pon q k 0)) (TP.modC ?_) fun _ => TP.getC_bind fun c ⟨s, hc⟩ => ?_
  · rintro s c h
    exact ⟨⟨h.sn, h.port, h.host, h.identity, h.size, h.rs, h.ws, h.clock⟩, fun hz => Clean.reset (h.size hz) (by omega)⟩
  have hh : (c.helloArgs rng).hostname.length < 256 := by show c.hostname.length < 256; rw [hc.1.host]; exact ho.host
  have iff := fun o => ser_iff hx q.dbg c.rx.n (c.helloArgs rng) c.ks o hr.random hr.key hh
  refine TP.bind (R := fun o s => s.2 = c ∧ clientHelloSer q.dbg c.rx.n (c.helloArgs rng) c.ks = .ok o) (TP.ofCipher ?_ ?_) fun o => ?_
  · rintro t - hz
    have hf := ho.fits hz
    have e1 : (c.helloArgs rng).hostname.length = q.host.length := by show c.hostname.length = _; rw [hc.1.host]
    have e2 : (c.helloArgs rng).identity.length = q.identity.length := by show c.identity.length = _; rw [hc.1.identity]
    have hsz : c.rx.n = q.n := hc.1.size hz
    have := (iff _).2 ⟨_, _, _, lengths_run q.dbg _ hh (by omega), fun _ => psk_ok _ (by omega), by
      rw [head_length _ _ _ hr.random hr.key, pskHead_length, hsz]; omega, rfl, rfl, rfl, rfl⟩
    rw [this]; nofun
  · intro a ha t ht; exact ⟨ht.2, ha⟩
  refine TP.bind (R := fun _ => L2 (Pon q k 0)) (TP.modC ?_) fun _ => TP.pure _ fun _ h => h
  rintro s c' ⟨rfl, e⟩
  obtain ⟨e, h, p, -, -, o3, -, -, -, o7⟩ := (iff o).1 e
  have olen : o.1.length ≤ c'.rx.buf.length := by
    rw [o7]
    simp only [List.length_append, List.length_cons, List.length_nil, toBe16_length]
    rw [show (Spec.Tls.binder _ _).length = 32 from hmac_length _ _]
    have o3 : 5 + (helloHead (c'.helloArgs rng) e h).length + (pskHead (c'.helloArgs rng).identity).length + 35 ≤ c'.rx.buf.length := o3
    omega
  have hl : (writeAt c'.rx.buf 0 o.1).length = c'.rx.buf.length := writeAt_length (by omega)
  have hcl : q.z → Clean q.n 0 { c'.rx with buf := writeAt c'.rx.buf 0 o.1 } := fun hz =>
    have := hc.2 hz
    ⟨by show (writeAt c'.rx.buf 0 o.1).length = q.n; rw [hl]; exact this.size, this.head, this.ad, this.room, this.tail⟩
  refine ⟨⟨hc.1.sn, hc.1.port, hc.1.host, hc.1.identity, fun hz => (hcl hz).size, ?_, ?_, hc.1.clock⟩, hcl⟩
  · show o.2.readSeq.toNat ≤ k; rw [o7]; exact hc.1.rs
  · show o.2.writeSeq.toNat ≤ k; rw [o7]; exact hc.1.ws

theorem tp_sendClientHello (hx : x.Standard) (ho : q.Ok) (hk : k + 1 < 2 ^ 64) (rng : Rng x) (hr : rng.Ok) :
    TP q.z (L2 (PB q k)) (sendClientHello q.dbg q.b rng q.secs : X _ (σ × Client x) _)
      (fun _ s => Pon q k 0 s.2 ∧ s.2.state = .waitServerHello) (L2 (PB q k)) := by
  refine (tp_makeHello hx ho rng hr).bind fun buf => TP.getC_bind fun c hc =>
    TP.conseq (P := L2 (Pon q k 0)) (E := L2 (Pon q k 0)) ?_ (fun _ h => h.1) (fun _ _ h => h) (fun _ h => h.1)
  have d := ho.dev
  refine (TP.onBus fun hz => fine_socketWriter (d hz) _).bind fun _ => (TP.onBus fun hz => fine_writerWriteAll (d hz) _ _).bind fun _ =>
    (TP.onBus fun hz => fine_writerSend (d hz) _).bind fun _ => TP.getC_bind fun c ⟨s, hc⟩ => ?_
  have h : c.ks.writeSeq.toNat ≤ k := hc.1.ws
  have e : c.ks.incrementWriteSeq = .ok { c.ks with writeSeq := c.ks.writeSeq + 1 } := by
    unfold KeySchedule.incrementWriteSeq
    rw [if_pos (by omega)]
  rw [e]
  refine TP.bind (R := fun _ s => s.2 = c) (TP.ofCipher (fun _ _ _ h => nomatch h) fun a ha t ht => ht.2) fun ks => TP.modC ?_
  rintro s c' rfl
  exact ⟨⟨(hc.1.withKs (ks := ks.initializeEarlySecret) (Nat.zero_le _) (Nat.zero_le _)).to _, hc.2⟩, rfl⟩

theorem tp_sendClientFinished (hx : x.Standard) (ho : q.Ok) :
    TP q.z (L2 (Pon q k 0)) (sendClientFinished q.b : X _ (σ × Client x) _) (fun _ => L2 (Pon q k 0)) (L2 (PB q k)) := by
  refine TP.getC_bind fun c _ => TP.pre (P := L2 (Pon q k 0)) ?_ fun _ h => h.1
  refine TP.bind (R := fun v s => Pon q k 0 s.2 ∧ v.length ≤ 100) (TP.unwrap fun a ha t ht => ⟨ht, ?_⟩) fun v => ?_
  · unfold KeySchedule.clientFinishedVerifyData at ha
    rcases hm : c.ks.clientTraffic with _ | t' <;> rw [hm] at ha
    · exact nomatch ha
    · injection ha with ha
      rw [← ha, hx.hmac, hmac_length]
      omega
  · refine TP.of_fact (p := v.length ≤ 100) (fun _ h => h.2) fun hv => TP.pre (P := L2 (Pon q k 0)) ?_ fun _ h => h.1
    refine TP.bind (R := fun _ => L2 (Pon q k 0)) (((tp_sendRecord ho _ _ ?_ (Pon q k 0)).mapErr _).postE fun _ h => h.1) fun _ => TP.modC ?_
    · unfold clientFinished; simp; omega
    · intro s c h
      exact ⟨(h.1.withKs (ks := c.ks.initializeMasterSecret) (Nat.zero_le _) (Nat.zero_le _)).to' _, h.2⟩

/-! ## `process` -/

/-- What a call of `process` ends with. -/
def POut (q : PCfg σ) (k : Nat) (ev : TEvent) (c : Client x) : Prop :=
  PB q k c ∧ (ev ≠ .applicationData → q.z → Unconnected c.state ∨ Clean q.n 0 c.rx)

theorem tp_checkTimeout :
    TP q.z (L2 (PI q k)) (checkTimeout q.dbg q.secs : X _ (σ × Client x) _) (fun ev => L2 (POut q k ev)) (L2 (POff q k)) := by
  refine TP.getC_bind fun c ⟨s, hc⟩ => TP.pre (P := L2 (PI q k)) ?_ fun _ h => h.1
  refine TP.bind (R := fun _ => L2 (PI q k)) (TP.ofCipher (fun _ _ hz => ?_) fun _ _ _ h => h) fun e => ?_
  · unfold Client.elapsedSecs
    split
    · nofun
    · rename_i t ht
      rw [if_neg]
      · nofun
      · rintro ⟨hd, hlt⟩
        have := hc.1.clock hz hd t ht
        rw [UInt32.le_iff_toNat_le] at this
        rw [UInt32.lt_iff_toNat_lt] at hlt
        omega
  cases e with
  | none => exact TP.pure _ fun _ h => ⟨h.1, fun _ => h.2⟩
  | some e =>
    refine TP.ite (fun _ => TP.bind (R := fun _ => L2 (POff q k)) (TP.modC fun s c h => ?_) fun _ => TP.throw _ fun _ h => h) fun _ =>
      TP.pure _ fun _ h => ⟨h.1, fun _ => h.2⟩
    show POff q k (if c.state = .waitDiscon then c.reset else c.setState .sendDiscon)
    split
    · exact PB.reset h.1
    · exact ⟨PB.to' h.1 _, .inr (.inr (.inr (.inl rfl)))⟩

theorem tp_afterRecv (hx : x.Standard) (ho : q.Ok) :
    TP q.z (L2 (PI q k)) (afterRecv q.dbg q.b q.secs : X _ (σ × Client x) _) (fun ev => L2 (POut q k ev)) (L2 (POff q k)) := by
  refine TP.getC_bind fun c ⟨s, hc⟩ => TP.ite (fun hs => ?_) fun _ => tp_checkTimeout.pre fun _ h => h.1
  refine TP.bind ((tp_orFatal ho (tp_sendClientFinished hx ho)).pre fun u h => ⟨h.1.1, fun hz => ?_⟩) fun _ =>
    TP.pure _ fun _ h => ⟨h.1, fun _ hz => .inr (h.2 hz)⟩
  rcases h.1.2 hz with h' | h'
  · rw [h.2, hs] at h'
    rcases h' with h' | h' | h' | h' | h' <;> exact nomatch h'
  · exact h'

/-- What holds before the state is looked at. -/
structure PSt (q : PCfg σ) (k : Nat) (s : σ × Client x) : Prop where
  inv : PI q k s.2
  tcp : s.2.state ≠ .reset → q.Tcp
  uniq : s.2.state = .reset → q.z → q.dbg = true → PortUnique q.b q.sn q.port
  quiet : s.2.state = .waitConInt → q.z → ∀ n, (q.b.snRxRsr q.sn s.1).1 = .ok n → n < 5

theorem tp_receiveRecords (hx : x.Standard) (ho : q.Ok) (hk : k + 1 < 2 ^ 64) (fuel : Nat) :
    TP q.z (fun s => PSt q k s ∧ s.2.state ≠ .reset ∧ s.2.state ≠ .sendDiscon) (receiveRecords q.dbg fuel q.b q.secs : X _ (σ × Client x) _)
      (fun ev => L2 (POut q (k + 1) ev)) (L2 (POff q (k + 1))) := by
  have upI : ∀ c : Client x, PI q k c → PI q (k + 1) c := fun c h => ⟨h.1.mono (Nat.le_succ k), h.2⟩
  have up : ∀ s : σ × Client x, L2 (POff q k) s → L2 (POff q (k + 1)) s := fun s h => ⟨h.1.mono (Nat.le_succ k), h.2⟩
  refine TP.of_eq fun s0 ⟨h, h1, h2⟩ => TP.getC_bind fun c ⟨s, hc⟩ => ?_
  have hc : s0.2 = c := by rw [← hc]
  subst hc
  refine TP.ite (fun _ => tp_checkTimeout.pre fun u hu => by
    show PI q (k + 1) u.2; rw [hu.2]; exact upI _ h.inv) fun h3 => ?_
  rw [h.inv.1.sn]
  refine TP.bind (R := fun n s => q.b.snRxRsr q.sn s0.1 = (.ok n, s.1) ∧ s.2 = s0.2) ((tp_orFatal ho ?_).postE up) fun rsr => ?_
  · exact (TP.onBus_eq (fun hz => fine_snRxRsr (ho.dev hz) q.sn) s0).conseq (fun u hu => hu.1) (fun _ _ h => h) fun u hu => by
      show PB q k u.2; rw [hu.2.2]; exact h.inv.1
  refine TP.ite (fun hr => ?_) fun _ => (tp_afterRecv hx ho).pre fun u hu => by
    show PI q (k + 1) u.2; rw [hu.2]; exact upI _ h.inv
  refine TP.of_fact (p := ∃ t, q.b.snRxRsr q.sn s0.1 = (.ok rsr, t)) (fun u hu => ⟨_, hu.1⟩) fun ⟨t, ht⟩ => ?_
  refine TP.bind (R := fun ev => L2 (PEv q (k + 1) ev)) ((tp_recv ho (h.tcp h1) hk fuel).pre fun u hu => ?_) fun ev => ?_
  · show Pon q k 0 u.2
    rw [hu.2]
    refine ⟨h.inv.1, fun hz => ?_⟩
    rcases h.inv.2 hz with h' | h'
    · exfalso
      rcases h' with h' | h' | h' | h' | h'
      · exact h1 h'
      · have := h.quiet h' hz rsr (by rw [ht])
        rw [UInt16.lt_iff_toNat_lt] at this
        rw [ge_iff_le, UInt16.le_iff_toNat_le] at hr
        omega
      · exact h3 (.inl h')
      · exact h2 h'
      · exact h3 (.inr h')
    · exact h'
  · cases ev with
    | none => exact (tp_afterRecv hx ho).pre fun _ h => ⟨h.1, fun hz => .inr (h.2 (by nofun) hz)⟩
    | some ev => exact TP.pure _ fun _ h => ⟨h.1, fun he hz => .inr (h.2 (fun e => he (by injection e)) hz)⟩

theorem tp_onState (hx : x.Standard) (ho : q.Ok) (hk : k + 1 < 2 ^ 64) (fuel : Nat) :
    TP q.z (PSt q k) (onState q.dbg fuel q.b q.secs : X _ (σ × Client x) _) (fun ev => L2 (POut q (k + 1) ev)) (L2 (POff q (k + 1))) := by
  have up : ∀ s : σ × Client x, L2 (POff q k) s → L2 (POff q (k + 1)) s := fun s h => ⟨h.1.mono (Nat.le_succ k), h.2⟩
  refine TP.getC_bind fun c ⟨s, hc⟩ => ?_
  have rest : c.state ≠ .reset → c.state ≠ .sendDiscon → TP q.z (fun s => PSt q k s ∧ s.2 = c)
      (receiveRecords q.dbg fuel q.b q.secs : X _ (σ × Client x) _) (fun ev => L2 (POut q (k + 1) ev)) (L2 (POff q (k + 1))) :=
    fun h1 h2 => (tp_receiveRecords hx ho hk fuel).pre fun u hu => ⟨hu.1, by rw [hu.2]; exact h1, by rw [hu.2]; exact h2⟩
  cases hs : c.state
  case reset =>
    refine ((tp_orFatal ho (tp_tlsTcpConnect ho (hc.uniq hs) fuel)).conseq (fun _ h => h.1.inv.1) (fun _ _ h => h) up).bind fun _ =>
      TP.pure _ fun u h => ⟨h.1.mono (Nat.le_succ k), fun _ _ => .inl h.2⟩
  case sendDiscon =>
    have ht := hc.tcp (by show c.state ≠ _; rw [hs]; nofun)
    refine TP.pre (P := L2 (PB q k)) ?_ (fun _ h => h.1.inv.1)
    dsimp only
    rw [hc.inv.1.sn]
    refine ((tp_orFatal ho (TP.onBus fun hz => fine_tcpDisconnect' (ho.dev hz) (ht hz))).postE up).bind fun _ =>
      (TP.modC (R := fun _ => L2 (POff q k)) fun s c h => ⟨PB.to h _, .inr (.inr (.inr (.inr rfl)))⟩).bind fun _ =>
      TP.pure _ fun u h => ⟨h.1.mono (Nat.le_succ k), fun _ _ => .inl h.2⟩
  all_goals exact rest (by rw [hs]; nofun) (by rw [hs]; nofun)

theorem tp_onInterrupt (hx : x.Standard) (ho : q.Ok) (hk : k + 1 < 2 ^ 64) (fuel : Nat) (ir : SocketInterrupt) :
    TP q.z (PSt q k) (onInterrupt q.dbg fuel q.b q.secs ir : X _ (σ × Client x) _) (fun ev => L2 (POut q (k + 1) ev))
      (L2 (POff q (k + 1))) := by
  refine TP.getC_bind fun c ⟨s, hc⟩ => ?_
  have hc1 : PB q (k + 1) c := hc.inv.1.mono (Nat.le_succ k)
  have reset : TP q.z (fun s => PSt q k s ∧ s.2 = c) (modC Client.reset : X TErr (σ × Client x) Unit) (fun _ => L2 (POff q (k + 1)))
      (L2 (POff q (k + 1))) := TP.modC fun s u h => by
    have h2 : u = c := h.2
    rw [h2]; exact hc1.reset
  refine TP.ite (fun _ => TP.ite (fun _ => reset.bind fun _ => TP.pure _ fun _ h => ⟨h.1, fun _ _ => .inl h.2⟩) fun hs =>
    TP.throw _ fun u hu => ?_) fun _ => TP.ite (fun _ => reset.bind fun _ => TP.throw _ fun _ h => h) fun _ =>
    TP.ite (fun _ => ?_) fun _ => (tp_onState hx ho hk fuel).pre fun _ h => h.1
  · rw [Decidable.not_not] at hs
    show POff q (k + 1) u.2
    rw [hu.2]; exact ⟨hc1, .inr (.inr (.inr (.inr hs)))⟩
  · exact (TP.modC (R := fun _ => L2 (POff q (k + 1))) fun s u h => by
      have h2 : u = c := h.2
      rw [h2]; exact ⟨hc1.resetKeys.to _, .inr (.inr (.inr (.inl rfl)))⟩).bind fun _ => TP.pure _ fun _ h => ⟨h.1, fun _ _ => .inl h.2⟩

theorem con_of_any {ir : SocketInterrupt} (h : ir.anyRaised = false) : ir.conRaised = false := by
  obtain ⟨r⟩ := ir
  unfold SocketInterrupt.anyRaised at h
  unfold SocketInterrupt.conRaised
  revert h
  exact (by decide +kernel : ∀ r : Fin 256, ((⟨⟨r⟩⟩ : UInt8) &&& SocketInterrupt.allMask != 0) = false →
    ((⟨⟨r⟩⟩ : UInt8) &&& SocketInterrupt.conMask != 0) = false) r.toBitVec.toFin

/-- **The invariant of `process`, with no panic.** -/
theorem tp_process (hx : x.Standard) (ho : q.Ok) (hk : k + 1 < 2 ^ 64) (fuel : Nat) (rng : Rng x) (hr : rng.Ok) (s0 : σ × Client x)
    (hi : PI q k s0.2) (hq : q.z → s0.2.state = .waitConInt → NothingBeforeCon q.b q.sn s0.1)
    (ha : q.z → q.dbg = true → TlsAsserts q.b s0.1 q.secs s0.2) :
    TP q.z (fun u => u = s0) (process q.dbg fuel q.b rng q.secs : X _ (σ × Client x) _) (fun ev => L2 (POut q (k + 1) ev))
      (L2 (POff q (k + 1))) := by
  have up : ∀ s : σ × Client x, L2 (POff q k) s → L2 (POff q (k + 1)) s := fun s h => ⟨h.1.mono (Nat.le_succ k), h.2⟩
  have tcp : s0.2.state ≠ .reset → q.Tcp := fun h hz hd => by have := (ha hz hd).status h; rwa [hi.1.sn] at this
  have uniq : s0.2.state = .reset → q.z → q.dbg = true → PortUnique q.b q.sn q.port := fun h hz hd => by
    have := (ha hz hd).unique h; rwa [hi.1.sn, hi.1.port] at this
  refine TP.getC_bind fun c ⟨s, hc⟩ => ?_
  have hc : s0.2 = c := by rw [← hc]
  subst hc
  rw [hi.1.sn]
  refine TP.pre (P := fun u => u = s0) ?_ fun _ h => h.1
  refine (TP.attempt (TP.onBus_eq (fun hz => fine_snIr (ho.dev hz) q.sn) s0)).bind fun r => ?_
  match r with
  | .error e =>
    refine (tp_onState hx ho hk fuel).pre fun u hu => ?_
    obtain ⟨h1, ⟨e, h2⟩, h3⟩ := hu
    refine ⟨by rw [h3]; exact hi, by rw [h3]; exact tcp, by rw [h3]; exact uniq, fun hw hz n hn => ?_⟩
    rw [h3] at hw
    exact hq hz hw (.error e) u.1 (by rw [← h1, ← h2]) (fun _ h => nomatch h) u.1 (.inl rfl) n hn
  | .ok ir =>
    refine TP.of_eq fun s1 ⟨h1, h2⟩ => ?_
    refine TP.ite (fun _ => ?_) fun hn => (tp_onState hx ho hk fuel).pre fun u hu => ?_
    · refine TP.getC_bind fun c ⟨s, hc⟩ => ?_
      have hc : s1.2 = c := by rw [← hc]
      subst hc
      have hsn : s1.2.sn = q.sn := by rw [h2]; exact hi.1.sn
      rw [hsn]
      refine TP.bind (R := fun w s => q.b.setSnIr q.sn ir.raw s1.1 = (.ok w, s.1) ∧ s.2 = s1.2) ((tp_orFatal ho ?_).postE up) fun _ => ?_
      · exact (TP.onBus_eq (fun hz => fine_setSnIr (ho.dev hz) q.sn _) s1).conseq (fun _ h => h.1) (fun _ _ h => h) fun u hu => by
          show PB q k u.2; rw [hu.2.2, h2]; exact hi.1
      refine TP.ite (fun hcon => ?_) fun hcon => (tp_onInterrupt hx ho hk fuel ir).pre fun u hu => ?_
      · refine TP.bind (R := fun _ s => Pon q k 0 s.2 ∧ s.2.state = .waitServerHello) (((tp_orFatal ho
          (tp_sendClientHello hx ho hk rng hr)).pre fun u hu => by show PB q k u.2; rw [hu.2, h2]; exact hi.1).postE up) fun _ =>
          (tp_onInterrupt hx ho hk fuel ir).pre fun u hu => ?_
        refine ⟨⟨hu.1.1, fun hz => .inr (hu.1.2 hz)⟩, fun _ hz hd => ?_, fun h => (by rw [hu.2] at h; exact nomatch h),
          fun h => (by rw [hu.2] at h; exact nomatch h)⟩
        by_cases hs : s0.2.state = .reset
        · have := (ha hz hd).noCon hs ir (by rw [hi.1.sn, h1])
          rw [hcon] at this; exact nomatch this
        · exact tcp hs hz hd
      · obtain ⟨h3, h4⟩ := hu
        rw [h2] at h4
        refine ⟨by rw [h4]; exact hi, by rw [h4]; exact tcp, by rw [h4]; exact uniq, fun hw hz n hn => ?_⟩
        rw [h4] at hw
        exact hq hz hw (.ok ir) s1.1 h1 (fun i e => by injection e with e; rw [← e]; simpa using hcon) u.1 (.inr ⟨_, _, h3⟩) n hn
    · subst hu
      refine ⟨by rw [h2]; exact hi, by rw [h2]; exact tcp, by rw [h2]; exact uniq, fun hw hz n hn' => ?_⟩
      rw [h2] at hw
      refine hq hz hw (.ok ir) u.1 h1 (fun i e => ?_) u.1 (.inl rfl) n hn'
      injection e with e; rw [← e]
      exact con_of_any (by simpa using hn)

end Verif.Tls
