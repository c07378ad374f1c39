import Verif.Proof.PanicDhcp
import Verif.Proof.Mqtt
/-!
# Panics of the MQTT client
-/
namespace Verif.Mqtt
open Hl
open Spec (NoPanic Device StatusTcp PortUnique)
variable {σ : Type} {b : Bus σ} {L : Nat}

theorem decodeLoop_safe (dbg : Bool) : ∀ (xs : Bytes) (k : Nat) (m v : UInt32) (n : UInt8), m.toNat = 128 ^ k → v.toNat < 128 ^ k →
    k + xs.length ≤ 4 → decodeLoop dbg xs m v n ≠ .error .panic := by
  intro xs
  induction xs with
  | nil => intro k m v n _ _ _ h; exact nomatch h
  | cons x xs ih =>
    intro k m v n hm hv hk
    unfold decodeLoop
    have hx : (x &&& 0x7F).toNat ≤ 127 := by rw [UInt8.toNat_and]; exact Nat.and_le_right
    have hmul : (x &&& 0x7F).toNat * m.toNat ≤ 127 * 128 ^ k := by rw [hm]; exact Nat.mul_le_mul_right _ hx
    have hk3 : k ≤ 3 := by rw [List.length_cons] at hk; omega
    have hpow : 128 ^ k ≤ 128 ^ 3 := Nat.pow_le_pow_right (by decide) hk3
    have hpow' : (128 : Nat) ^ 3 = 2097152 := by decide
    have hlt : v.toNat + (x &&& 0x7F).toNat * m.toNat < 4294967296 := by omega
    rw [if_neg (by omega)]
    dsimp only
    split
    · exact fun h => nomatch h
    · split
      · exact fun h => nomatch h
      · have h128 : (128 : UInt32).toNat = 128 := rfl
        refine ih (k + 1) _ _ _ ?_ ?_ (by rw [List.length_cons] at hk; omega)
        · rw [UInt32.toNat_mul, hm, Nat.pow_succ, h128]; omega
        · rw [UInt32.toNat_add, UInt32.toNat_mul, UInt8.toNat_toUInt32, Nat.pow_succ]; omega

theorem deser_safe (dbg : Bool) {buf : Bytes} (h : buf.length ≤ 5) : FixedHeader.deser dbg buf ≠ .error .panic := by
  unfold FixedHeader.deser
  split
  · exact fun h => nomatch h
  · rename_i x xs
    rw [List.length_cons] at h
    have := decodeLoop_safe dbg xs 0 1 0 0 rfl (by decide) (by omega)
    unfold decodeVbi
    split
    · rename_i e he; rw [he] at this; intro h'; injection h' with h'; exact this (by rw [h'])
    · split <;> exact fun h => nomatch h

theorem encodeVbi_some {n : UInt32} (h : n.toNat < 268435456) : ∃ bs, encodeVbi n = some bs := by
  have hl : ∀ k (n : UInt32), n.toNat < 128 ^ (k + 1) → ∃ bs, encodeLoop (k + 1) n = some bs := by
    intro k
    induction k with
    | zero =>
      intro n hn
      unfold encodeLoop
      rw [if_pos]
      · exact ⟨_, rfl⟩
      · apply UInt32.toNat_inj.1
        rw [UInt32.toNat_div]
        exact Nat.div_eq_of_lt (by simpa using hn)
    | succ k ih =>
      intro n hn
      unfold encodeLoop
      split
      · exact ⟨_, rfl⟩
      · obtain ⟨bs, hbs⟩ := ih (n / 128) (by
          rw [UInt32.toNat_div]
          refine Nat.div_lt_of_lt_mul ?_
          have : (128 : UInt32).toNat = 128 := rfl
          rw [this]; rw [Nat.pow_succ] at hn; omega)
        rw [hbs]
        exact ⟨_, rfl⟩
  exact hl 3 n h

theorem wsafe_writeVbi {n : UInt32} (h : n.toNat < 268435456) : WSafe (writeVbi n) := by
  obtain ⟨bs, hbs⟩ := encodeVbi_some h
  unfold writeVbi
  rw [hbs]
  exact WSafe.doWriteAll _

theorem wsafe_publishProg (topic payload : Bytes) : WSafe (publishProg topic payload) := by
  unfold publishProg
  refine WSafe.bind (fun _ => WSafe.bind (fun _ => ?_) _ (wsafe_writeVbi ?_)) _ (WSafe.doWriteAll _)
  · exact WSafe.bind (fun _ => WSafe.bind (fun _ => WSafe.bind (fun _ => WSafe.doWriteAll _) _ (WSafe.doWriteAll _)) _
      (WSafe.doWriteAll _)) _ (WSafe.doWriteAll _)
  · have h1 := u16_lt (lenU16 topic.length)
    have h2 := u16_lt (lenU16 payload.length)
    rw [UInt32.toNat_add, UInt32.toNat_add, UInt32.toNat_add, UInt16.toNat_toUInt32, UInt16.toNat_toUInt32]
    have : (2 : UInt32).toNat = 2 := rfl
    have : (1 : UInt32).toNat = 1 := rfl
    omega

theorem filter_vbi (n : UInt16) : (2 + 1 + n.toUInt32).toNat < 268435456 := by
  have h1 := u16_lt n
  rw [UInt32.toNat_add, UInt16.toNat_toUInt32]
  have : (2 + 1 : UInt32).toNat = 3 := rfl
  omega

theorem wsafe_subscribeProg {dbg : Bool} {filter : Bytes} (h : dbg = true → filter.length % 65536 + 3 < 65536) (id : UInt16) :
    WSafe (subscribeProg dbg filter id) := by
  unfold subscribeProg filterLen
  rw [if_neg (by have : (3 : UInt16).toNat = 3 := rfl; rw [this]; intro ⟨hd, hl⟩; have := h hd; omega)]
  refine WSafe.bind (fun _ => WSafe.bind (fun _ => ?_) _ (wsafe_writeVbi (filter_vbi _))) _ (WSafe.doWriteAll _)
  exact WSafe.bind (fun _ => WSafe.bind (fun _ => WSafe.bind (fun _ => WSafe.doWriteAll _) _ (WSafe.doWriteAll _)) _
      (WSafe.doWriteAll _)) _ (WSafe.doWriteAll _)

theorem wsafe_unsubscribeProg {dbg : Bool} {filter : Bytes} (h : dbg = true → filter.length % 65536 + 2 < 65536) (id : UInt16) :
    WSafe (unsubscribeProg dbg filter id) := by
  unfold unsubscribeProg filterLen
  rw [if_neg (by have : (2 : UInt16).toNat = 2 := rfl; rw [this]; intro ⟨hd, hl⟩; have := h hd; omega)]
  refine WSafe.bind (fun _ => WSafe.bind (fun _ => ?_) _ (wsafe_writeVbi (filter_vbi _))) _ (WSafe.doWriteAll _)
  exact WSafe.bind (fun _ => WSafe.bind (fun _ => WSafe.doWriteAll _) _ (WSafe.doWriteAll _)) _ (WSafe.doWriteAll _)

theorem wsafe_connectProg (id : Option Bytes) (n : UInt16) : WSafe (connectProg id n) := by
  unfold connectProg
  refine WSafe.bind (fun _ => ?_) _ (WSafe.doWriteAll _)
  cases id
  · exact WSafe.pure _
  · exact WSafe.doWriteAll _

/-- The end of a published message is an offset in the stream. -/
def InfoOk (i : PubInfo) : Prop := i.payloadIdx.toNat + i.payloadLen.toNat ≤ 65535

/-- What is found in the bytes received. -/
def OutOk : RecvOut → Prop
  | .publish i => InfoOk i
  | _ => True

theorem toI16_le (x : UInt16) : (toI16 x).toInt ≤ x.toNat ∧ 0 ≤ (toI16 x).toInt := by
  by_cases h : x.toNat ≤ 32767
  · rw [toI16_toInt x h]; omega
  · unfold toI16
    rw [if_neg (by rw [UInt16.le_iff_toNat_le]; exact h)]
    have : (32767 : Int16).toInt = 32767 := rfl
    rw [this]; omega

theorem rsafe_skipProperties (n : UInt8) {p : Nat} (hp : p ≤ L) :
    RSafe L (fun _ q => q ≤ L ∧ q = p + n.toNat) (skipProperties n) p := by
  unfold skipProperties
  split
  · refine RSafe.doSeek fun q hq ht => ⟨hq, ?_⟩
    rw [Spec.seekTarget, u8_i16] at ht
    omega
  · rename_i h
    rw [Classical.not_not] at h
    rw [h]
    exact ⟨hp, rfl⟩

theorem satSub16_toNat (a b : UInt16) : (satSub16 a b).toNat = a.toNat - b.toNat := by
  unfold satSub16
  split
  · rename_i h; rw [UInt16.lt_iff_toNat_lt] at h; show 0 = _; omega
  · rename_i h
    rw [UInt16.lt_iff_toNat_lt] at h
    rw [u16_sub_toNat]; have := u16_lt a; have := u16_lt b; omega

theorem rsafe_recvPublish (hL : L ≤ 65535) {p : Nat} (rl : UInt16) (hp : p + rl.toNat ≤ L) :
    RSafe L (fun o _ => OutOk o) (recvPublish rl) p := by
  unfold recvPublish
  refine RSafe.bind (Q := fun _ q => q ≤ L ∧ q = p + 2) (fun t q hq => ?_) _ p
    (RSafe.doReadExact fun x _ h => ⟨h, by omega⟩)
  refine RSafe.bind (Q := fun _ q' => q' = q) (fun i q' hq' => ?_) _ q (RSafe.doStreamPosition rfl)
  subst hq'
  generalize be16 (t.getD 0 0) (t.getD 1 0) = tl
  refine RSafe.bind (Q := fun _ r => r ≤ L ∧ r ≤ q' + tl.toNat) (fun _ r hr => ?_) _ q'
    (RSafe.doSeek fun r h ht => ⟨h, by rw [Spec.seekTarget] at ht; have := toI16_le tl; omega⟩)
  refine RSafe.bind (Q := fun _ r' => r' ≤ L ∧ r' = r + 1) (fun pl r' hr' => ?_) _ r
    (RSafe.doReadExact fun x _ h => ⟨h, by omega⟩)
  generalize pl.getD 0 0 = n
  refine RSafe.bind (fun _ z hz => ?_) _ r' (rsafe_skipProperties n hr'.1)
  refine RSafe.bind (Q := fun i _ => i = UInt16.ofNat z) (fun i z' hi => ?_) _ z (RSafe.doStreamPosition rfl)
  show InfoOk _
  unfold InfoOk
  dsimp only
  rw [hi, UInt16.toNat_ofNat', satSub16_toNat, satSub16_toNat, satSub16_toNat, satSub16_toNat, UInt8.toNat_toUInt16]
  have : (2 : UInt16).toNat = 2 := rfl
  have : (1 : UInt16).toNat = 1 := rfl
  omega

theorem rsafe_recvProg (dbg : Bool) (hL : L ≤ 65535) (state : State) (p : Nat) :
    RSafe L (fun o _ => OutOk o) (recvProg dbg state) p := by
  unfold recvProg
  refine RSafe.bind (Q := fun x _ => x.length ≤ 5) (fun x q hx => ?_) _ p (RSafe.doRead fun x hx => by omega)
  have hd := deser_safe dbg hx
  split
  · trivial
  · trivial
  · rename_i h; exact (hd h).elim
  · rename_i h _
    refine RSafe.bind (Q := fun _ q => q ≤ L) (fun _ q hq => ?_) _ q (RSafe.doSeek fun _ h _ => h)
    refine RSafe.bind (Q := fun r q' => r = UInt16.ofNat (L - q) ∧ q' = q) (fun r q' hr => ?_) _ q (RSafe.doRemain ⟨rfl, rfl⟩)
    split
    · trivial
    · rename_i hle
      have hle : q + h.remainingLen.toNat ≤ L := by
        have hle : ¬ r < h.remainingLen := hle
        rw [UInt16.lt_iff_toNat_lt, hr.1, UInt16.toNat_ofNat'] at hle
        omega
      rw [hr.2]
      have hack : ∀ k, (∀ a b, OutOk (k a b)) → RSafe L (fun o _ => OutOk o) (recvAck k) q := by
        intro k hk
        unfold recvAck
        refine RSafe.bind (Q := fun _ q => q ≤ L) (fun x q hq => ?_) _ q (RSafe.doRead fun _ _ => by omega)
        split
        · refine RSafe.bind (fun _ q hq => ?_) _ q (rsafe_skipProperties _ hq)
          exact RSafe.bind (Q := fun _ _ => True) (fun _ _ _ => by exact hk _ _) _ _ (RSafe.doReadExact fun _ _ _ => trivial)
        · trivial
      unfold recvBody
      split
      · trivial
      · unfold recvConnAck
        split
        · trivial
        · refine RSafe.bind (Q := fun _ _ => True) (fun _ _ _ => ?_) _ _ (RSafe.doReadExact fun _ _ _ => trivial)
          exact RSafe.bind (Q := fun _ _ => True) (fun _ _ _ => by exact trivial) _ _ (RSafe.doSeek fun _ _ _ => trivial)
      · refine hack _ fun a b => ?_
        unfold subAckOut
        split <;> trivial
      · refine hack _ fun a b => ?_
        unfold unSubAckOut
        split <;> trivial
      · exact rsafe_recvPublish hL _ hle
      · exact RSafe.bind (Q := fun _ _ => True) (fun _ _ _ => by exact trivial) _ _ (RSafe.doSeek fun _ _ _ => trivial)

theorem mapW5500_safe {α : Type} {m : M σ α} {Q : α → Prop} (h : FineM Q m) :
    FineM (fun x => ∀ a, x = .ok a → Q a) (mapW5500 m) := by
  intro s
  have h := h s
  unfold mapW5500
  rcases e : m s with ⟨x | a, s'⟩
  all_goals rw [e] at h
  · have hf := h.1 x rfl
    cases x with
    | wouldBlock => exact (hf.2 rfl).elim
    | panic => exact (hf.1 rfl).elim
    | outOfMemory => exact ⟨(fun _ h => nomatch h), fun a' h' a e' => by injection h' with h'; rw [e'] at h'; exact nomatch h'⟩
    | unexpectedEof => exact ⟨(fun _ h => nomatch h), fun a' h' a e => by injection h' with h'; rw [e] at h'; exact nomatch h'⟩
    | bus n => exact ⟨fun e he => by injection he with he; rw [← he]; exact hf, (fun _ h => nomatch h)⟩
    | hang => exact ⟨fun e he => by injection he with he; rw [← he]; exact hf, (fun _ h => nomatch h)⟩
  · refine ⟨(fun _ h => nomatch h), fun a' h' a'' e => ?_⟩
    injection h' with h'
    rw [← h'] at e
    injection e with e
    rw [← e]; exact h.2 a rfl

section
variable (hb : Device b)
include hb

theorem fine_sendPacket (r : Ptrs) {p : WProg Unit} (hp : WSafe p) : Ok (sendPacket b r p) := by
  unfold sendPacket
  exact FineM.bind (fine_onWriter hb r hp) fun _ _ => fine_writerSend hb _

/-- What is true of the client during a call: it keeps its socket and port, and its clock did not go backwards. -/
def Inv (dbg : Bool) (sn : Sn) (port : UInt16) (secs : UInt32) (c : Client) : Prop :=
  c.sn = sn ∧ c.srcPort = port ∧ (dbg = true → ∀ t, c.timeout = some t → t ≤ secs)

/-- The reader of a published message can be used. -/
def PubOk (r : PublishReader) : Prop := (∃ L p, At r.reader L p) ∧ InfoOk r.info

/-- The event of a published message. -/
def EventOk (x : Except MErr Event) : Prop := ∀ r, x = .ok (.publish r) → PubOk r

variable {dbg : Bool} {sn : Sn} {port : UInt16} {secs : UInt32}
local notation "Inv'" => Inv dbg sn port secs

omit hb in
theorem safe_modC {I : Client → Prop} {f : Client → Client} (h : ∀ c, I c → I (f c)) :
    Safe I (fun _ => True) (modC f : M (σ × Client) Unit) := Safe.mod h

omit hb in
theorem safe_setState (st : State) : Safe Inv' (fun _ => True) (modC (Client.setState st) : M (σ × Client) Unit) :=
  safe_modC fun _ hi => ⟨hi.1, hi.2.1, (fun _ _ h => nomatch h)⟩

omit hb in
theorem safe_setStateWithTimeout (st : State) :
    Safe Inv' (fun _ => True) (modC (Client.setStateWithTimeout st secs) : M (σ × Client) Unit) :=
  safe_modC fun c hi => ⟨hi.1, hi.2.1, fun _ t ht => by injection ht with ht; rw [ht]; exact UInt32.le_refl _⟩

omit hb in
theorem safe_checkTimeout : Safe Inv' EventOk (checkTimeout dbg secs : M (σ × Client) _) := by
  unfold checkTimeout
  refine Safe.bind Safe.get fun c hc => ?_
  refine Safe.bind (Q := fun _ => True) (Safe.ofExcept ?_ fun _ _ => trivial) fun e _ => ?_
  · unfold Client.elapsedSecs
    split
    · exact fun h => nomatch h
    · rename_i t ht
      rw [if_neg]
      · exact fun h => nomatch h
      · intro ⟨hd, hlt⟩
        have := hc.2.2 hd t ht
        rw [UInt32.lt_iff_toNat_lt] at hlt
        rw [UInt32.le_iff_toNat_le] at this
        omega
  · split
    · exact Safe.ite (Safe.bind (safe_setState _) fun _ _ => Safe.pure fun _ h => nomatch h) (Safe.pure fun _ h => nomatch h)
    · exact Safe.pure fun _ h => nomatch h

theorem safe_recvFinish {r : Ptrs} {p : Nat} (ha : At r L p) {o : RecvOut} (ho : OutOk o) :
    Safe Inv' (fun x => ∀ ev, x = .ok (some ev) → EventOk (.ok ev)) (recvFinish b r o) := by
  have hd := fine_tcpReaderDone hb r
  have hn : ∀ ev : Event, (∀ r, ev ≠ .publish r) → ∀ ev', (Except.ok (some ev) : Except MErr (Option Event)) = .ok (some ev') →
      EventOk (.ok ev') := by
    intro ev h ev' e r hr
    injection e with e; injection e with e; injection hr with hr
    exact (h r (e.trans hr)).elim
  unfold recvFinish
  split
  · exact Safe.pure (fun _ h => nomatch h)
  · exact Safe.bind (safe_setState _) fun _ _ => Safe.pure (fun _ h => nomatch h)
  · exact Safe.pure (fun _ h => nomatch h)
  · refine Safe.bind (Safe.onBus hd) fun _ _ => ?_
    split
    · exact Safe.bind (safe_setState _) fun _ _ => Safe.pure (fun _ h => nomatch h)
    · exact Safe.ite (Safe.bind (safe_setState _) fun _ _ => Safe.pure (hn _ (by nofun)))
        (Safe.bind (safe_setState _) fun _ _ => Safe.pure (fun _ h => nomatch h))
  · exact Safe.bind (Safe.onBus hd) fun _ _ => Safe.pure (hn _ (by nofun))
  · exact Safe.bind (Safe.onBus hd) fun _ _ => Safe.pure (hn _ (by nofun))
  · refine Safe.pure fun ev e r' hr => ?_
    injection e with e; injection e with e
    rw [← e] at hr
    injection hr with hr; injection hr with hr
    rw [← hr]
    exact ⟨⟨L, p, ha⟩, ho⟩
  · exact Safe.bind (Safe.onBus hd) fun _ _ => Safe.pure (fun _ h => nomatch h)

theorem tryReader_at (hs : dbg = true → StatusTcp b sn) (s : σ) :
    (tryReader dbg b sn s).1 ≠ .error .panic ∧ ∀ x, (tryReader dbg b sn s).1 = .ok x → ∀ r, x = some r → ∃ L, At r L 0 := by
  unfold tryReader
  have h1 := tcpReader_at hb hs s
  rcases e : tcpReader dbg b sn s with ⟨x | u, s'⟩
  · rw [e] at h1
    cases x <;> first
      | exact (h1.1 rfl).elim
      | exact ⟨by nofun, fun x h u hu => by injection h with h; rw [← h] at hu; injection hu⟩
      | exact ⟨by nofun, by nofun⟩
  · rw [e] at h1
    refine ⟨by nofun, fun x h r hr => ?_⟩
    injection h with h
    rw [← h] at hr
    injection hr with hr
    rw [← hr]
    exact h1.2 u rfl

theorem safe_receive (hs : dbg = true → StatusTcp b sn) : Safe Inv' EventOk (receive dbg b secs) := by
  unfold receive
  refine Safe.bind Safe.get fun c hc => ?_
  refine Safe.bind (Safe.onBus' (tryReader_at hb (by rw [hc.1]; exact hs))) fun r hr => ?_
  split
  · exact safe_checkTimeout
  · obtain ⟨L, ha⟩ := hr _ rfl
    have hL : L ≤ 65535 := by exact Nat.le_of_lt_succ (by rw [← ha.1]; exact u16_lt _)
    refine Safe.bind (Q := fun x => ∀ ev, x = .ok (some ev) → EventOk (.ok ev)) ?_ fun x hx => ?_
    · unfold recv
      refine Safe.bind Safe.get fun c hc => ?_
      refine Safe.bind (Safe.onBus (mapW5500_safe (fine_onTcpReader hb ha (rsafe_recvProg dbg hL c.state 0)))) fun x hx => ?_
      split
      · exact Safe.pure (fun _ h => nomatch h)
      · obtain ⟨q, ho, hq⟩ := hx _ rfl
        exact safe_recvFinish hb hq ho
    · split
      · exact Safe.pure fun _ h => nomatch h
      · exact Safe.pure (hx _ rfl)
      · exact safe_checkTimeout

theorem safe_tcpConnectMqtt (fuel : Nat) (hp : dbg = true → PortUnique b sn port) :
    Safe Inv' (fun _ => True) (tcpConnectMqtt dbg fuel b secs) := by
  unfold tcpConnectMqtt
  refine Safe.bind Safe.get fun c hc => ?_
  refine Safe.bind (Safe.onBus (fine_simr hb)) fun _ _ => ?_
  refine Safe.bind (Safe.onBus (fine_setSimr hb _)) fun _ _ => ?_
  refine Safe.bind (Safe.onBus (fine_setSnImr hb _ _)) fun _ _ => ?_
  refine Safe.bind (Safe.onBus (fine_tcpConnect hb fuel _ (by rw [hc.1, hc.2.1]; exact hp))) fun _ _ => ?_
  exact Safe.bind (safe_setStateWithTimeout _) fun _ _ => Safe.pure trivial

theorem safe_sendConnect : Safe Inv' (fun _ => True) (sendConnect b secs) := by
  unfold sendConnect
  refine Safe.bind Safe.get fun c hc => ?_
  refine Safe.bind (Safe.onBus (fine_snRxbufSize hb _)) fun _ _ => ?_
  refine Safe.bind (Safe.onBus (fine_socketWriter hb _)) fun r _ => ?_
  refine Safe.bind (Safe.onBus (mapW5500_safe (fine_sendPacket hb r (wsafe_connectProg _ _)))) fun x _ => ?_
  split
  · exact Safe.pure trivial
  · exact Safe.bind (safe_setStateWithTimeout _) fun _ _ => Safe.pure trivial

theorem process_safe (fuel : Nat) {c : Client} (hi : Inv dbg sn port secs c) (hs : dbg = true → c.state ≠ .init → StatusTcp b sn)
    (hp : dbg = true → c.state = .init → PortUnique b sn port) (s : σ) :
    (process dbg fuel b secs (s, c)).1 ≠ .error .panic ∧
      ∀ r, (process dbg fuel b secs (s, c)).1 = .ok (.ok (.publish r)) → PubOk r := by
  by_cases hst : c.state = .init
  · have h : Safe Inv' EventOk (tcpConnectMqtt dbg fuel b secs >>= fun n => pure (.ok (.callAfter n))) :=
      Safe.bind (safe_tcpConnectMqtt hb fuel fun h => hp h hst) fun _ _ => Safe.pure fun _ h => nomatch h
    have h := h s c hi
    have e : process dbg fuel b secs (s, c) = (tcpConnectMqtt dbg fuel b secs >>= fun n => pure (.ok (.callAfter n))) (s, c) := by
      unfold process; rw [M.bind_run]; simp only [getC, if_pos hst]
    rw [e]
    exact ⟨h.1, fun r hr => (h.2 _ hr).2 r rfl⟩
  · have hrec : Safe Inv' EventOk (receive dbg b secs) := safe_receive hb fun h => hs h hst
    have h : Safe Inv' EventOk (onBus (b.snIr c.sn) >>= fun ir =>
        if ir.anyRaised then onBus (b.setSnIr c.sn ir.raw) >>= fun _ => onInterrupt dbg b secs ir
        else receive dbg b secs) := by
      refine Safe.bind (Safe.onBus (fine_snIr hb _)) fun ir _ => Safe.ite ?_ hrec
      refine Safe.bind (Safe.onBus (fine_setSnIr hb _ _)) fun _ _ => ?_
      unfold onInterrupt
      refine Safe.ite ?_ (Safe.ite ?_ (Safe.ite ?_ hrec))
      · exact Safe.bind (safe_setState _) fun _ _ => Safe.pure fun _ h => nomatch h
      · refine Safe.bind (safe_sendConnect hb) fun x _ => Safe.pure fun r h => ?_
        rcases x with x | x <;> exact nomatch h
      · exact Safe.bind (safe_setState _) fun _ _ => Safe.pure fun _ h => nomatch h
    have h := h s c hi
    have e : process dbg fuel b secs (s, c) = (onBus (b.snIr c.sn) >>= fun ir =>
        if ir.anyRaised then onBus (b.setSnIr c.sn ir.raw) >>= fun _ => onInterrupt dbg b secs ir
        else receive dbg b secs) (s, c) := by
      unfold process; rw [M.bind_run]; simp only [getC, if_neg hst]
    rw [e]
    exact ⟨h.1, fun r hr => (h.2 _ hr).2 r rfl⟩

theorem publish_safe (topic payload : Bytes) : NoPanic (publish b topic payload) := by
  have h : Safe (fun _ => True) (fun _ => True) (publish b topic payload) := by
    unfold publish
    refine Safe.bind Safe.get fun c _ => Safe.ite ?_ (Safe.pure trivial)
    refine Safe.bind (Safe.onBus (fine_socketWriter hb _)) fun r _ => ?_
    intro s c hi
    have := Safe.onBus (I := fun _ : Client => True) (mapW5500_safe (fine_sendPacket hb r (wsafe_publishProg topic payload))) s c hi
    exact ⟨this.1, fun a h => ⟨trivial, trivial⟩⟩
  exact fun s => (h s.1 s.2 trivial).1

theorem sendFilter_safe (filter : Bytes) {p : UInt16 → WProg Unit} (hp : ∀ n, WSafe (p n)) : NoPanic (sendFilter b filter p) := by
  have h : Safe (fun _ => True) (fun _ => True) (sendFilter b filter p) := by
    unfold sendFilter
    refine Safe.bind Safe.get fun c _ => Safe.ite ?_ (Safe.pure trivial)
    refine Safe.bind (Safe.onBus (fine_socketWriter hb _)) fun r _ => ?_
    refine Safe.bind (safe_modC fun _ _ => trivial) fun _ _ => Safe.bind Safe.get fun c _ => Safe.ite (Safe.pure trivial) ?_
    exact Safe.bind (Safe.onBus (mapW5500_safe (fine_sendPacket hb r (hp _)))) fun x _ => Safe.pure trivial
  exact fun s => (h s.1 s.2 trivial).1

theorem onPublish_safe {α : Type} {r : PublishReader} (hr : PubOk r) {prog : RProg α} (hp : ∀ L p, RSafe L (fun _ _ => True) prog p) :
    FineM (fun x => ∀ a r', x = .ok (a, r') → PubOk r') (onPublish b r prog) := by
  obtain ⟨⟨L, p, ha⟩, hi⟩ := hr
  intro s
  have h := mapW5500_safe (fine_onTcpReader hb ha (hp L p)) s
  unfold onPublish
  rcases e0 : mapW5500 (onTcpReader b r.reader prog) s with ⟨x | x | ⟨a, r'⟩, s'⟩
  all_goals rw [e0] at h
  · exact ⟨fun e he => by injection he with he; rw [← he]; exact h.1 x rfl, (fun _ h => nomatch h)⟩
  · exact ⟨(fun _ h => nomatch h), fun y hy a' r'' e => by injection hy with hy; rw [e] at hy; exact nomatch hy⟩
  · refine ⟨(fun _ h => nomatch h), fun y hy a' r'' e => ?_⟩
    injection hy with hy
    rw [← hy] at e
    injection e with e
    injection e with _ e
    obtain ⟨q, -, hq⟩ := h.2 _ rfl _ rfl
    rw [← e]
    exact ⟨⟨L, q, hq⟩, hi⟩

theorem publishDone_safe {r : PublishReader} (hr : PubOk r) : NoPanic (publishDone dbg b r) := by
  unfold publishDone
  refine NoPanic.bind (onPublish_safe hb hr fun L p => ?_).noPanic fun x => ?_
  · unfold publishDoneProg
    rw [if_neg (by have := hr.2; unfold InfoOk at this; omega)]
    exact RSafe.doSeek fun _ _ _ => trivial
  · split
    · exact NoPanic.pure _
    · exact NoPanic.bind (fine_tcpReaderDone hb _).noPanic fun _ => NoPanic.pure _

end
end Verif.Mqtt
