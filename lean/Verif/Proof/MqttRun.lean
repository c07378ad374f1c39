import Verif.Proof.Mqtt
import Verif.Proof.Calm
import Verif.Thm.MqttSend
import Verif.Proof.TxOnly
/-!
# The MQTT client on a world
-/
namespace Verif
open Hl Spec Thm

/-- `tcp_reader`: it panics (debug build, wrong socket state), finds nothing, or makes a reader over what is unread. -/
theorem tcpReader_run (dbg : Bool) (sn : Sn) (w : World) (base p : Nat) (hb : RxAt w.chip sn.idx base p) :
    (∃ w1, tcpReader dbg worldBus sn w = (.error .panic, w1) ∧ Later w w1 ∧ dbg = true) ∨
    (∃ w1, tcpReader dbg worldBus sn w = (.error .wouldBlock, w1) ∧ Later w w1 ∧ (w1.chip.received sn.idx).length = p) ∨
    (∃ r w1 D, tcpReader dbg worldBus sn w = (.ok r, w1) ∧ Later w w1 ∧ r.sn = sn ∧ D ≠ [] ∧
      (w.chip.received sn.idx).drop p <+: D ∧ D <+: (w1.chip.received sn.idx).drop p ∧ RdRel (w1, r) ⟨D, 0⟩ base p p) := by
  obtain ⟨w0, hw0, hd⟩ := run_debugAssert dbg _ w (run_notUdpInitMacraw sn w)
  have hl0 : Later w w0 := by
    rcases hw0 with rfl | rfl
    · exact .refl _
    · exact .tick _
  rcases hd.symm with ⟨hdbg, hd⟩ | hd
  · left
    refine ⟨w0, ?_, hl0, hdbg⟩
    unfold tcpReader
    rw [M.bind_error hd]
  · right
    have h0 := (hb.of_or hw0).tick
    have hrsr := h0.rsr_toNat
    unfold tcpReader
    rw [M.bind_ok hd, M.bind_ok (run_snRxRsr sn w0)]
    by_cases hz : UInt16.ofNat (w0.tick.chip.rxRsr sn.idx) = 0
    · left
      rw [if_pos hz]
      refine ⟨w0.tick, rfl, hl0.trans (.tick _), ?_⟩
      have := h0.rx.le
      rw [hz] at hrsr
      change 0 = _ at hrsr
      omega
    · right
      rw [if_neg hz, M.bind_ok (run_snRxRd sn w0.tick)]
      have h1 := h0.tick
      have pre0 := (recv_prefix_of_or sn.idx hw0).trans (tick_received_prefix w0 sn.idx)
      have pre1 := tick_received_prefix w0.tick sn.idx
      have hle := h0.rx.le
      have hlen := pre1.length_le
      have hne : (w0.tick.chip.received sn.idx).length - p ≠ 0 := by
        rw [← hrsr]; exact u16_ne_zero.mp hz
      have hrd : (UInt16.ofNat (w0.tick.tick.chip.rxRd sn.idx)).toNat = (base + p) % 65536 := by
        rw [ofNat16_toNat (by rw [h1.rd]; omega), h1.rd]
      have hlD : ((w0.tick.chip.received sn.idx).drop p).length = (w0.tick.chip.received sn.idx).length - p :=
        List.length_drop
      refine ⟨_, _, (w0.tick.chip.received sn.idx).drop p, rfl, hl0.trans ((Later.tick _).trans (.tick _)), rfl, ?_,
        prefix_drop pre0 p, prefix_drop pre1 p, ?_⟩
      · intro e; rw [e] at hlD; simp at hlD; omega
      · constructor
        · exact h1
        · exact Nat.le_refl _
        · simp only [hlD]; omega
        · simp only [hlD]
          rw [← take_drop_prefix pre1 p _ (by omega), List.take_of_length_le (by rw [hlD]; exact Nat.le_refl _)]
        · exact Nat.zero_le _
        · exact hrd
        · simp only [hlD]; rw [UInt16.toNat_add, hrd, hrsr]; omega
        · exact hrd

/-- Using a reader. -/
theorem onTcpReader_run {α : Type} (prog : RProg α) {w : World} {r : Ptrs} {c : Cursor} {base p q : Nat} (h : RdRel (w, r) c base p q) :
    ∃ w' r', Later w w' ∧ r'.sn = r.sn ∧ RdRel (w', r') (prog.run cursorOps c).2 base p q ∧
      onTcpReader worldBus r prog w = ((prog.run cursorOps c).1.map fun a => (a, r'), w') := by
  obtain ⟨h1, h2⟩ := prog_sim prog h
  refine ⟨_, _, later_rprog prog w r, prog_sn (b := worldBus) prog w r, h2, ?_⟩
  unfold onTcpReader
  rcases hr : prog.run (tcpReaderOps worldBus) (w, r) with ⟨x, w', r'⟩
  rw [hr] at h1
  rw [← h1]
  cases x <;> rfl

theorem RdRel.later {w w' : World} {r : Ptrs} {c : Cursor} {base p q : Nat} (h : RdRel (w, r) c base p q) (hl : Later w w') :
    RdRel (w', r) c base p q := by
  obtain ⟨j, rfl⟩ := hl
  induction j generalizing w with
  | zero => exact h
  | succ j ih => exact ih h.tick

/-- `done` consumes what is before the position of the reader. -/
theorem tcpReaderDone_run {w : World} {r : Ptrs} {c : Cursor} {base p : Nat} (h : RdRel (w, r) c base p p) :
    ∃ w', tcpReaderDone worldBus r w = (.ok (), w') ∧ RxAt w'.chip r.sn.idx base (p + c.pos) ∧ TxCalm r.sn.idx w w' ∧
      w.chip.received r.sn.idx <+: w'.chip.received r.sn.idx := by
  have hpos := h.pos
  have hlen := h.len
  have hptr := h.ptr
  obtain ⟨w2, e2, h2, h3⟩ := RxAt.consume (w := w) (sn := r.sn) h.rx.rx r.ptr (q := p + c.pos)
    (by rw [← Nat.add_assoc]; exact hptr) (by omega) (Nat.le_trans (Nat.add_le_add_left hpos p) hlen)
  refine ⟨w2, e2, h2, ?_, h3⟩
  have := txCalm_done ⟨⟨r.sn, r.head, r.ptr, r.ptr⟩, ⟨default, 0⟩⟩ w
  change TxCalm r.sn.idx w (tcpReaderDone worldBus r w).2 at this
  rw [show tcpReaderDone worldBus r w = (.ok (), w2) from e2] at this
  exact this

/-- What sending a packet does not change. -/
structure TxKept (k : Nat) (w w' : World) : Prop where
  rx : ∀ base p, RxAt w.chip k base p → RxAt w'.chip k base p
  recvd : w.chip.received k <+: w'.chip.received k
  peace : Peace k w → Peace k w'
  idle : TxState w.chip k → TxState w'.chip k
  conf : ∀ a, 4 ≤ a → a < 0x20 → w'.chip.mem (4 * k + 1) a = w.chip.mem (4 * k + 1) a

theorem TxKept.tick (k : Nat) (w : World) : TxKept k w w.tick :=
  ⟨fun _ _ h => h.tick, tick_received_prefix w _, fun h => h.tick, fun h => h.tick, fun _ _ _ => tick_frame _ _ _ (by omega) (by omega)⟩

theorem TxKept.trans {k : Nat} {a b c : World} (h1 : TxKept k a b) (h2 : TxKept k b c) : TxKept k a c :=
  ⟨fun x y h => h2.rx x y (h1.rx x y h), h1.recvd.trans h2.recvd, fun h => h2.peace (h1.peace h), fun h => h2.idle (h1.idle h),
    fun a h3 h4 => (h2.conf a h3 h4).trans (h1.conf a h3 h4)⟩

theorem TxKept.destIp {k : Nat} {w w' : World} (h : TxKept k w w') : w'.chip.destIp k = w.chip.destIp k := by
  unfold Chip.destIp
  refine List.map_congr_left fun i hi => ?_
  have := List.mem_range.mp hi
  exact h.conf _ (by omega) (by omega)

theorem TxKept.destPort {k : Nat} {w w' : World} (h : TxKept k w w') : w'.chip.destPort k = w.chip.destPort k := by
  unfold Chip.destPort Mem.word
  rw [h.conf _ (by omega) (by omega), h.conf _ (by omega) (by omega)]

theorem writerSend_conf (r : Ptrs) (w : World) (a : Nat) (h1 : 4 ≤ a) (h2 : a < 0x20) :
    (writerSend worldBus r w).2.chip.mem (4 * r.sn.idx + 1) a = w.chip.mem (4 * r.sn.idx + 1) a := by
  unfold writerSend
  rw [M.bind_ok (run_setSnTxWr r.sn r.ptr w), run_setSnCr, command_send]
  have hs : ∀ (c : Chip) (b v z : Nat), z ≠ b ∧ z ≠ b + 1 → (c.setReg r.sn.idx b v).mem (4 * r.sn.idx + 1) z = c.mem (4 * r.sn.idx + 1) z :=
    fun c b v z h => Mem.setWord_ne _ _ _ _ _ _ (by omega)
  show ((Chip.setReg _ _ _ _).setReg _ _ _).mem _ _ = _
  rw [hs _ _ _ _ (by omega), hs _ _ _ _ (by omega), tick_frame _ _ _ (by omega) (by omega), hs _ _ _ _ (by omega),
    tick_frame _ _ _ (by omega) (by omega)]

/-- A writer, a packet and `send`. -/
theorem packet_run {sn : Sn} {w : World} (h : TxState w.chip sn.idx) {p : WProg Unit} {bs : Bytes} (hp : EmitsAt 0 p bs) :
    ∃ r, socketWriter worldBus sn w = (.ok r, w.tick) ∧
      ((∃ w', Mqtt.sendPacket worldBus r p w.tick = (.ok (), w') ∧ TxState w'.chip sn.idx ∧ bs.length ≤ w.chip.txSize sn.idx ∧
        w'.chip.sent = w.chip.sent ++ [⟨sn.idx, w.chip.destIp sn.idx, w.chip.destPort sn.idx, bs⟩] ∧ TxKept sn.idx w w') ∨
       (∃ w', Mqtt.sendPacket worldBus r p w.tick = (.error .outOfMemory, w') ∧ w'.chip.sent = w.chip.sent ∧
        w.chip.txFsr sn.idx < bs.length ∧ TxKept sn.idx w w')) := by
  obtain ⟨r, img, e, hsn, hpos, hlen, rel⟩ := run_socketWriter h
  refine ⟨r, e, ?_⟩
  obtain ⟨g1, g2⟩ := wprog_sim p rel
  have hs2 : (p.run (writerOps worldBus) (w.tick, r)).2.2.sn = sn := (wprog_sn p _ _).trans hsn
  have ht := h.tick
  have hlt : w.tick.chip.txWr sn.idx < 65536 := Mem.word_lt _ _ _
  have hbuf : img = ⟨img.buf, 0⟩ := by cases img; cases hpos; rfl
  obtain ⟨p1, p2⟩ := hp img.buf.length ⟨img.buf, 0⟩ [] rfl (Written.start img.buf)
  rw [← hbuf] at p1 p2
  have hfsr := tick_txFsr_ge h
  have hfle := ht.fsr_le
  rw [tick_txSize] at hfle
  have hto : TxOnly sn.idx w (Mqtt.sendPacket worldBus r p w.tick).2 := by
    have := txOnly_emitSend sn p w
    unfold emitSend at this
    rw [M.bind_ok e] at this
    exact this
  unfold Mqtt.sendPacket at hto ⊢
  by_cases hf : 0 + bs.length ≤ img.buf.length
  · obtain ⟨c', r1, w1⟩ := p1 hf
    left
    obtain ⟨w2, e2, s1, s2, s3, s4, s5⟩ := g2.send (by rw [hs2, ht.idle]; omega) (by rw [hs2]; omega)
    rw [hs2] at s1 s2 s4 s5
    rw [r1] at g1 s1
    rcases hr : p.run (writerOps worldBus) (w.tick, r) with ⟨x, w', r'⟩
    rw [hr] at g1 e2
    change x = _ at g1
    subst g1
    have ho : onWriter worldBus r p w.tick = (.ok ((), r'), w') := by unfold onWriter; rw [hr]
    refine ⟨w2, ?_, s2, by omega, ?_, fun base q hq => s4 base q hq.tick, (tick_received_prefix w sn.idx).trans s5, ?_, fun _ => s2, ?_⟩
    · rw [M.bind_ok ho]; exact e2
    rotate_left
    · rw [M.bind_ok ho, show writerSend worldBus r' w' = _ from e2] at hto
      exact hto.peace
    · intro a h1 h2
      have hc := writerSend_conf r' w' a h1 h2
      have hg := g2.regs
      rw [hr] at hs2 hg
      change r'.sn = sn at hs2
      rw [show writerSend worldBus r' w' = _ from e2, hs2] at hc
      rw [hc]
      dsimp only at hg
      rw [hs2] at hg
      rw [hg _ _ (by omega) (by omega) (by omega), tick_frame _ _ _ (by omega) (by omega)]
    · rw [s1, tick_sent, tick_destIp, tick_destPort]
      dsimp only
      rw [w1.take]; rfl
  · obtain ⟨c', r1⟩ := p2 hf
    right
    have hsent := g2.sent
    have hrx := g2.rx
    have hpre := g2.pre
    rw [r1] at g1
    rcases hr : p.run (writerOps worldBus) (w.tick, r) with ⟨x, w', r'⟩
    rw [hr] at g1 hsent hrx hpre
    change x = _ at g1
    subst g1
    have ho : onWriter worldBus r p w.tick = (.error .outOfMemory, w') := by unfold onWriter; rw [hr]
    refine ⟨w', M.bind_error ho, hsent.trans (tick_sent w), by omega, fun base q hq => hrx _ base q hq.tick,
      (tick_received_prefix w sn.idx).trans (hpre _), ?_, fun _ => ?_, ?_⟩
    · rw [M.bind_error ho] at hto
      exact hto.peace
    · have hg := g2.regs
      have hfs := g2.fsr
      rw [hr] at hs2 hg hfs
      change r'.sn = sn at hs2
      dsimp only at hg hfs
      rw [hs2] at hg hfs
      have e1 : w'.chip.txSize sn.idx = w.tick.chip.txSize sn.idx := by
        unfold Chip.txSize; rw [hg _ _ (by omega) (by omega) (by omega)]
      refine ⟨by rw [e1]; exact ht.size_dvd, by rw [e1]; exact ht.size_lt, ?_, by rw [e1]; exact hfs⟩
      have i1 : w'.chip.txRd sn.idx = w.tick.chip.txRd sn.idx := by
        unfold Chip.txRd Mem.word
        rw [hg _ _ (by omega) (by omega) (by omega), hg _ _ (by omega) (by omega) (by omega)]
      have i2 : w'.chip.txWr sn.idx = w.tick.chip.txWr sn.idx := by
        unfold Chip.txWr Mem.word
        rw [hg _ _ (by omega) (by omega) (by omega), hg _ _ (by omega) (by omega) (by omega)]
      rw [i1, i2]; exact ht.idle
    · intro a h1 h2
      have hg := g2.regs
      rw [hr] at hs2 hg
      change r'.sn = sn at hs2
      dsimp only at hg
      rw [hs2] at hg
      rw [hg _ _ (by omega) (by omega) (by omega), tick_frame _ _ _ (by omega) (by omega)]

/-! ## The client -/
namespace Mqtt

theorem onBus_ok {α : Type} {m : M World α} {w w' : World} {c : Client} {a : α} (h : m w = (.ok a, w')) :
    onBus m (w, c) = (.ok a, (w', c)) := by unfold onBus; rw [h]
theorem onBus_error {α : Type} {m : M World α} {w w' : World} {c : Client} {e : Err} (h : m w = (.error e, w')) :
    onBus m (w, c) = (.error e, (w', c)) := by unfold onBus; rw [h]

theorem run_snIr (sn : Sn) (w : World) : worldBus.snIr sn w = (.ok ⟨w.tick.chip.mem (4 * sn.idx + 1) 2⟩, w.tick) := by
  change (Except.ok (SocketInterrupt.mk (w.tick.chip.readByte sn.block.toNat 2)), w.tick) = _
  rw [Sn.block_idx, readByte_sock _ _ _ (by omega)]

theorem run_snRxbufSize (sn : Sn) (w : World) :
    worldBus.snRxbufSize sn w = (.ok (BufferSize.tryFrom (w.tick.chip.mem (4 * sn.idx + 1) 0x1E)), w.tick) := by
  change (Except.ok (BufferSize.tryFrom (w.tick.chip.readByte sn.block.toNat 0x1E)), w.tick) = _
  rw [Sn.block_idx, readByte_sock _ _ _ (by omega)]

theorem quiet_of_none : ∀ x : UInt8, (⟨x⟩ : SocketInterrupt).anyRaised = false →
    (⟨x⟩ : SocketInterrupt).disconRaised = false ∧ (⟨x⟩ : SocketInterrupt).conRaised = false ∧ (⟨x⟩ : SocketInterrupt).timeoutRaised = false :=
  forall_u8 (p := fun x => (⟨x⟩ : SocketInterrupt).anyRaised = false →
    (⟨x⟩ : SocketInterrupt).disconRaised = false ∧ (⟨x⟩ : SocketInterrupt).conRaised = false ∧ (⟨x⟩ : SocketInterrupt).timeoutRaised = false)
    (by decide +kernel)

theorem clear_quiet (x q : UInt8) (hq : Spec.Mqtt.quiet q = true) : Spec.Mqtt.quiet ((x ||| q) &&& ~~~x) = true := by
  have h : (x ||| q) &&& ~~~x = q &&& ~~~x := by
    apply UInt8.toBitVec_inj.mp
    simp only [UInt8.toBitVec_and, UInt8.toBitVec_or, UInt8.toBitVec_not]
    ext i
    simp only [BitVec.getElem_and, BitVec.getElem_or, BitVec.getElem_not]
    cases x.toBitVec[i] <;> simp
  rw [h]
  exact quiet_and _ hq

/-- Processing, once connecting was started: reading and clearing the interrupts, then acting on them. -/
theorem process_run (dbg : Bool) (fuel : Nat) (secs : UInt32) (w : World) (c : Client) (h : c.state ≠ .init) :
    ∃ w1, Calm c.sn.idx w w1 ∧ process dbg fuel worldBus secs (w, c) =
      onInterrupt dbg worldBus secs ⟨w.tick.chip.mem (4 * c.sn.idx + 1) 2⟩ (w1, c) := by
  have hg : (getC : M (World × Client) Client) (w, c) = (.ok c, (w, c)) := rfl
  unfold process
  rw [M.bind_ok hg, if_neg h, M.bind_ok (onBus_ok (run_snIr c.sn w))]
  generalize w.tick.chip.mem (4 * c.sn.idx + 1) 2 = x
  cases ha : (⟨x⟩ : SocketInterrupt).anyRaised with
  | true =>
    obtain ⟨w1, h1, h2⟩ := calm_setSnIr c.sn (⟨x⟩ : SocketInterrupt).raw w.tick
    refine ⟨w1, (calm_tick _ w).trans h2, ?_⟩
    rw [if_pos rfl, M.bind_ok (onBus_ok h1)]
  | false =>
    obtain ⟨q1, q2, q3⟩ := quiet_of_none x ha
    refine ⟨w.tick, calm_tick _ w, ?_⟩
    rw [if_neg (by simp)]
    unfold onInterrupt
    rw [q1, q2, q3]; rfl

/-- What an error becomes. -/
def mapErr {α : Type} : Err → Except Err (Except MErr α)
  | .outOfMemory => .ok (.error .outOfMemory)
  | .unexpectedEof => .ok (.error .decode)
  | .wouldBlock => .error .panic
  | e => .error e

/-- What `process` does with the result of `recv`. -/
def after (dbg : Bool) (secs : UInt32) (x : Except MErr (Option Event)) : M (World × Client) (Except MErr Event) :=
  match x with
  | .error e => pure (.error e)
  | .ok (some ev) => pure (.ok ev)
  | .ok none => checkTimeout dbg secs

theorem receive_run (dbg : Bool) (secs : UInt32) (w : World) (c : Client) (base p : Nat) (hb : RxAt w.chip c.sn.idx base p) :
    (∃ w1, receive dbg worldBus secs (w, c) = (.error .panic, (w1, c)) ∧ Later w w1 ∧ dbg = true) ∨
    (∃ w1, receive dbg worldBus secs (w, c) = checkTimeout dbg secs (w1, c) ∧ Later w w1 ∧ (w1.chip.received c.sn.idx).length = p) ∨
    (∃ D w1 w2, Later w w1 ∧ Later w1 w2 ∧ D ≠ [] ∧ D.length ≤ 32768 ∧
      (w.chip.received c.sn.idx).drop p <+: D ∧ D <+: (w1.chip.received c.sn.idx).drop p ∧
      (∀ out cur, (recvProg dbg c.state).run cursorOps ⟨D, 0⟩ = (.ok out, cur) →
        ∃ r', r'.sn = c.sn ∧ RdRel (w2, r') cur base p p ∧
        receive dbg worldBus secs (w, c) = (recvFinish worldBus r' out >>= after dbg secs) (w2, c)) ∧
      (∀ e cur, (recvProg dbg c.state).run cursorOps ⟨D, 0⟩ = (.error e, cur) →
        receive dbg worldBus secs (w, c) = (mapErr e, (w2, c)))) := by
  have hg : ∀ w, (getC : M (World × Client) Client) (w, c) = (.ok c, (w, c)) := fun _ => rfl
  rcases tcpReader_run dbg c.sn w base p hb with ⟨w1, h1, h2, h3⟩ | ⟨w1, h1, h2, h3⟩ | ⟨r, w1, D, h1, h2, h3, h4, h5, h6, h7⟩
  · left
    refine ⟨w1, ?_, h2, h3⟩
    have ht : tryReader dbg worldBus c.sn w = (.error .panic, w1) := by unfold tryReader; rw [h1]
    unfold receive
    rw [M.bind_ok (hg w), M.bind_error (onBus_error ht)]
  · right; left
    refine ⟨w1, ?_, h2, h3⟩
    have ht : tryReader dbg worldBus c.sn w = (.ok none, w1) := by unfold tryReader; rw [h1]
    unfold receive
    rw [M.bind_ok (hg w), M.bind_ok (onBus_ok ht)]
  · right; right
    obtain ⟨w2, r', g1, g2, g3, g4⟩ := onTcpReader_run (recvProg dbg c.state) h7
    have ht : tryReader dbg worldBus c.sn w = (.ok (some r), w1) := by unfold tryReader; rw [h1]
    have hrec : receive dbg worldBus secs (w, c) = (recv dbg worldBus r >>= after dbg secs) (w1, c) := by
      unfold receive
      rw [M.bind_ok (hg w), M.bind_ok (onBus_ok ht)]
      rfl
    refine ⟨D, w1, w2, h2, g1, h4, h7.small, h5, h6, ?_, ?_⟩
    · intro out cur ho
      rw [ho] at g3 g4
      refine ⟨r', g2.trans h3, g3, ?_⟩
      have hm : mapW5500 (onTcpReader worldBus r (recvProg dbg c.state)) w1 = (.ok (.ok (out, r')), w2) := by
        unfold mapW5500; rw [g4]; rfl
      rw [hrec]
      have hr : recv dbg worldBus r (w1, c) = recvFinish worldBus r' out (w2, c) := by
        unfold recv
        rw [M.bind_ok (hg w1), M.bind_ok (onBus_ok hm)]
      rw [M.bind_run, hr, ← M.bind_run]
    · intro e cur he
      rw [he] at g4
      have hm : mapW5500 (onTcpReader worldBus r (recvProg dbg c.state)) w1 = (mapErr e, w2) := by
        unfold mapW5500 mapErr; rw [g4]; cases e <;> rfl
      have hr : recv dbg worldBus r (w1, c) = (mapErr e, (w2, c)) := by
        unfold recv
        rw [M.bind_ok (hg w1)]
        cases e <;> first | (rw [M.bind_ok (onBus_ok hm)]; rfl) | exact M.bind_error (onBus_error hm)
      rw [hrec]
      cases e <;> first | (rw [M.bind_ok hr]; rfl) | exact M.bind_error hr

end Mqtt
end Verif
