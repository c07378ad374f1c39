import Verif.Proof.TlsInv
import Verif.Thm.TlsBuffer
import Verif.Thm.TlsRecord
import Verif.Proof.Peace
import Verif.Proof.TxOnly
import Verif.Proof.MqttRun
import Verif.Thm.HlTcp
import Verif.Thm.MqttOut
import Verif.Proof.DhcpInv
/-!
# Receiving a protected record
-/
namespace Verif.Tls
open Verif Hl
open _root_.Verif.Spec (World worldBus TxState RxState Queue QOp QOut Chip Mem)
open _root_.Verif.Spec.Gcm (gctr counter inc32 J0)

/-! ## The receive buffer -/

theorem QRel.extend {b : Buffer} {q : Queue} (dbg : Bool) (h : QRel b q) (src : Bytes) (hs : q.size + src.length ≤ q.cap) :
    ∃ b', b.extendFromSlice dbg src = .ok b' ∧ QRel b' { q with pending := q.pending ++ src } := by
  have := h.step dbg (.extend src) ⟨trivial, trivial⟩ ⟨by dsimp only; omega, trivial⟩
  have e : q.step (.extend src) = (.ok, { q with pending := q.pending ++ src }) := by
    rw [Queue.step, if_pos hs]
  rw [e] at this
  simp only [Buffer.step] at this
  rcases hx : b.extendFromSlice dbg src with e | b'
  · rw [hx] at this
    cases e <;> exact absurd this.1 (by simp)
  · rw [hx] at this
    exact ⟨b', rfl, this.2⟩

theorem QRel.pop {b : Buffer} {q : Queue} (h : QRel b q) (hp : q.pending ≠ []) :
    ∃ b', b.popTail = some (q.pending.getLast hp, b') ∧ QRel b' { q with pending := q.pending.dropLast } := by
  have := h.step false .popTail ⟨hp, trivial⟩ ⟨trivial, trivial⟩
  have e : q.step .popTail = (.byte q.pending.getLast?, { q with pending := q.pending.dropLast }) := rfl
  rw [e] at this
  simp only [Buffer.step] at this
  rcases hx : b.popTail with _ | ⟨y, b'⟩
  · rw [hx] at this
    rw [List.getLast?_eq_some_getLast hp] at this
    exact absurd this.1 (by simp)
  · rw [hx] at this
    rw [List.getLast?_eq_some_getLast hp] at this
    have h1 := this.1
    simp only [QOut.byte.injEq, Option.some.injEq] at h1
    exact ⟨b', by rw [h1], this.2⟩

theorem QRel.commit {b : Buffer} {q : Queue} (dbg : Bool) (h : QRel b q) (n : Nat) (hn : n = q.pending.length) :
    ∃ b', b.incrementApplicationDataTail dbg n = .ok b' ∧ QRel b' { q with app := q.app ++ q.pending, pending := [] } := by
  have := h.step dbg (.commit n) ⟨hn, trivial⟩ ⟨trivial, trivial⟩
  have e : q.step (.commit n) = (.ok, { q with app := q.app ++ q.pending, pending := [] }) := rfl
  rw [e] at this
  simp only [Buffer.step] at this
  rcases hx : b.incrementApplicationDataTail dbg n with e | b'
  · rw [hx] at this
    exact absurd this.1 (by simp)
  · rw [hx] at this
    exact ⟨b', rfl, this.2⟩

/-! ## The socket -/

/-- The socket while a record is received: byte `p` is the first that was not removed, and nothing was sent. -/
structure Sock (w0 w : World) (k base p : Nat) : Prop where
  rx : RxOk w.chip k base p
  tx : TxState w.chip k
  sent : w.chip.sent = w0.chip.sent
  pre : w0.chip.received k <+: w.chip.received k
  peace : Peace k w0 → Peace k w
  free : w0.chip.txFsr k ≤ w.chip.txFsr k
  still : Still k w0 → Still k w ∧ w.chip.received k = w0.chip.received k
  sched : w.sched <:+ w0.sched
  simr : w.chip.mem 0 0x18 = w0.chip.mem 0 0x18

theorem setReg_mem0 (c : Chip) (k a v i : Nat) : (c.setReg k a v).mem 0 i = c.mem 0 i := by
  unfold Chip.setReg Mem.setWord Mem.store
  dsimp only
  rw [if_neg (by omega), if_neg (by omega)]

theorem tick_sched (w : World) : w.tick.sched <:+ w.sched := by
  unfold World.tick
  split
  · exact List.suffix_rfl
  · rename_i h
    rw [h]
    exact List.suffix_cons _ _

theorem setReg_txFsr (c : Chip) (k a v : Nat) (ha : 0x26 ≤ a) : (c.setReg k a v).txFsr k = c.txFsr k := by
  have hs : ∀ x, x < 0x26 → (c.setReg k a v).mem (4 * k + 1) x = c.mem (4 * k + 1) x :=
    fun x hx => Mem.setWord_ne _ _ _ _ _ _ (by omega)
  unfold Chip.txFsr Mem.word
  rw [hs _ (by omega), hs _ (by omega)]

theorem Sock.tick {w0 w : World} {k base p : Nat} (h : Sock w0 w k base p) : Sock w0 w.tick k base p :=
  ⟨h.rx.tick, h.tx.tick, (tick_sent w).trans h.sent, h.pre.trans (tick_received_prefix w k), fun e => (h.peace e).tick,
    Nat.le_trans h.free (tick_txFsr_ge h.tx), fun e => ⟨(h.still e).1.tick.1, (h.still e).1.tick.2.trans (h.still e).2⟩, (tick_sched w).trans h.sched,
    (tick_mem0 w 0x18).trans h.simr⟩

theorem Sock.of_or {w0 w w' : World} {k base p : Nat} (h : Sock w0 w k base p) (e : w' = w ∨ w' = w.tick) : Sock w0 w' k base p := by
  rcases e with rfl | rfl
  · exact h
  · exact h.tick

/-- Reading bytes that had arrived. -/
theorem Sock.read {w0 w : World} {sn : Sn} {base p : Nat} (h : Sock w0 w sn.idx base p) (ptr : UInt16) (q n : Nat)
    (hp : ptr.toNat = (base + q) % 65536) (hpq : p ≤ q) (hn : q + n ≤ (w0.chip.received sn.idx).length) :
    worldBus.snRxBuf sn ptr n w = (.ok (((w0.chip.received sn.idx).drop q).take n), w.tick) := by
  have := h.pre.length_le
  rw [h.rx.run_rxBuf ptr q n hp hpq (by omega), take_drop_prefix h.pre q n hn]

theorem Sock.setRd {w0 w : World} {sn : Sn} {base p : Nat} (h : Sock w0 w sn.idx base p) (v : UInt16) :
    ∃ w', worldBus.setSnRxRd sn v w = (.ok (), w') ∧ Sock w0 w' sn.idx base p := by
  refine ⟨_, run_setSnRxRd sn v w, ?_⟩
  have := h.tick
  exact ⟨(setReg_rxSame _ _ _ _ _ (by omega)).rxOk this.rx, Thm.setReg_tx (by omega) this.tx, this.sent, this.pre,
    fun e => (this.peace e).setReg _ _ _ (by omega), Nat.le_trans this.free (Nat.le_of_eq (setReg_txFsr _ _ _ _ (by omega)).symm), this.still, this.sched,
    (setReg_mem0 _ _ _ _ _).trans this.simr⟩

/-- Setting the read pointer and issuing RECV. -/
theorem Sock.consume {w0 w : World} {sn : Sn} {base p : Nat} (h : Sock w0 w sn.idx base p) (v : UInt16) (q : Nat)
    (hv : v.toNat = (base + q) % 65536) (hpq : p ≤ q) (hq : q ≤ (w0.chip.received sn.idx).length) :
    ∃ w1 w2, worldBus.setSnRxRd sn v w = (.ok (), w1) ∧ worldBus.setSnCr sn .recv w1 = (.ok (), w2) ∧ Sock w0 w2 sn.idx base q ∧
      w2.chip.rxRd sn.idx = (base + q) % 65536 := by
  have hl := h.pre.length_le
  obtain ⟨w2, e, h1, h2⟩ := RxAt.consume h.rx v hv hpq (by omega)
  rw [M.bind_ok (run_setSnRxRd sn v w)] at e
  refine ⟨_, w2, run_setSnRxRd sn v w, e, ⟨h1.rx, ?_, ?_, h.pre.trans h2, ?_, ?_, ?_, ?_, ?_⟩, h1.rd⟩
  · rw [run_setSnCr, command_recv] at e
    injection e with _ e
    rw [← e]
    refine Thm.setReg_tx (by omega) ?_
    have : TxState ({ w.tick with chip := w.tick.chip.setReg sn.idx 0x28 v.toNat } : World).chip sn.idx :=
      Thm.setReg_tx (by omega) h.tx.tick
    exact this.tick
  · rw [run_setSnCr, command_recv] at e
    injection e with _ e
    rw [← e]
    exact (tick_sent _).trans ((tick_sent w).trans h.sent)
  · intro g
    rw [run_setSnCr, command_recv] at e
    injection e with _ e
    rw [← e]
    exact (((h.peace g).tick.setReg _ _ _ (by omega)).tick).setReg _ _ _ (by omega)
  · rw [run_setSnCr, command_recv] at e
    injection e with _ e
    rw [← e]
    have h3 := tick_txFsr_ge h.tx
    have h4 : TxState ({ w.tick with chip := w.tick.chip.setReg sn.idx 0x28 v.toNat } : World).chip sn.idx :=
      Thm.setReg_tx (by omega) h.tx.tick
    have h5 := tick_txFsr_ge h4
    have h6 := h.free
    have h7 : ({ w.tick with chip := w.tick.chip.setReg sn.idx 0x28 v.toNat } : World).chip.txFsr sn.idx = w.tick.chip.txFsr sn.idx :=
      setReg_txFsr _ _ _ _ (by omega)
    refine Nat.le_trans ?_ (Nat.le_of_eq (setReg_txFsr _ _ _ _ (by omega)).symm)
    omega
  · intro g
    rw [run_setSnCr, command_recv] at e
    injection e with _ e
    rw [← e]
    have h3 := (h.still g).1.tick
    have h4 : Still sn.idx ({ w.tick with chip := w.tick.chip.setReg sn.idx 0x28 v.toNat } : World) := h3.1
    exact ⟨h4.tick.1, h4.tick.2.trans (h3.2.trans (h.still g).2)⟩
  · rw [run_setSnCr, command_recv] at e
    injection e with _ e
    rw [← e]
    exact (tick_sched { w.tick with chip := w.tick.chip.setReg sn.idx 0x28 v.toNat }).trans ((tick_sched w).trans h.sched)
  · rw [run_setSnCr, command_recv] at e
    injection e with _ e
    rw [← e, ← h.simr, ← tick_mem0 w]
    exact (setReg_mem0 _ _ _ _ _).trans ((tick_mem0 { w.tick with chip := w.tick.chip.setReg sn.idx 0x28 v.toNat } 0x18).trans (setReg_mem0 _ _ _ _ _))

theorem internal_ok {σ α : Type} {m : M σ α} {s s' : σ} {a : α} (h : m s = (.ok a, s')) : internal m s = (.ok a, s') :=
  X.mapErr_ok (X.ofM_ok h)

theorem extendRx_ok {σ : Type} {dbg : Bool} {src : Bytes} {s : σ} {b b' : Buffer} (h : b.extendFromSlice dbg src = .ok b') :
    extendRx dbg src (s, b) = (.ok (), (s, b')) := by
  unfold extendRx
  rw [X.bind_ok (show (X.get : X AlertDescription (σ × Buffer) _) (s, b) = (.ok (s, b), (s, b)) from rfl)]
  dsimp only
  rw [h]
  rfl

theorem popContentType_ok {σ : Type} {s : σ} {b b' : Buffer} {y : UInt8} (h : b.popTail = some (y, b')) :
    popContentType (s, b) = (.ok (ContentType.tryFrom y), (s, b')) := by
  unfold popContentType
  have : (popTailRx : X AlertDescription (σ × Buffer) _) (s, b) = (.ok (some y), (s, b')) := by
    unfold popTailRx
    dsimp only
    rw [h]
  rw [X.bind_ok this]
  rfl

/-! ## The loop -/

variable {key : Block} {iv : Vector UInt8 12} {aad : Vector UInt8 5}

theorem gctr_ne_nil (E : Nat → Nat) (I : Nat) {X : Bytes} (h : X ≠ []) : gctr E I X ≠ [] := by
  intro e
  have := congrArg List.length e
  rw [gctr_length] at this
  exact h (List.eq_nil_of_length_eq_zero this)

theorem append_ne_nil' {α : Type} (a : List α) {b : List α} (h : b ≠ []) : a ++ b ≠ [] := by
  intro e
  exact h (List.append_eq_nil_iff.mp e).2

theorem decryptLoop_run (dbg : Bool) (sn : Sn) (w0 : World) (base p cap : Nat) (app : Bytes) : ∀ (fuel n : Nat) (w : World) (q : Nat)
    (rd remain : UInt16) (g : Aes128Gcm) (C pend : Bytes) (rx : Buffer),
    Sock w0 w sn.idx base p → rd.toNat = (base + q) % 65536 → p ≤ q → remain.toNat = n → 0 < n → n ≤ 16 * fuel →
    q + n ≤ (w0.chip.received sn.idx).length → GInv key iv aad C C.length g → C.length % 16 = 0 → C.length + n < 65536 →
    QRel rx ⟨cap, app, pend⟩ → app.length + pend.length + n ≤ cap →
    let D := ((w0.chip.received sn.idx).drop q).take n
    let plain := gctr (Spec.Gcm.aes fun i => key[i.val]) (counter (inc32 (J0 iv.toList)) (C.length / 16)) D
    ∃ w' g' rd' rx', decryptLoop dbg worldBus sn fuel g rd remain (w, rx)
        = (.ok (ContentType.tryFrom (plain.getLast?.getD 0), g', rd'), (w', rx')) ∧
      Sock w0 w' sn.idx base p ∧ rd'.toNat = (base + (q + n)) % 65536 ∧ GInv key iv aad (C ++ D) (C ++ D).length g' ∧
      QRel rx' ⟨cap, app, (pend ++ plain).dropLast⟩ := by
  intro fuel
  induction fuel with
  | zero => intro n w q rd remain g C pend rx _ _ _ _ h5 h6; omega
  | succ fuel ih =>
    intro n w q rd remain g C pend rx hs hrd hpq hn hpos hfuel hlen hg hC hCl hq hcap D plain
    have hk : (min16 16 remain).toNat = min 16 n := by
      rw [min16_toNat, hn]; rfl
    generalize hdl : min16 16 remain = dl at hk
    have hsub : (remain - dl).toNat = n - min 16 n := by
      have := u16_lt remain
      rw [u16_sub_toNat, hk, hn]; omega
    have hrd' : (rd + dl).toNat = (base + (q + min 16 n)) % 65536 := by
      rw [UInt16.toNat_add, hrd, hk]; omega
    have eread := hs.read rd q dl.toNat hrd hpq (by omega)
    rw [hk] at eread
    generalize hX : ((w0.chip.received sn.idx).drop q).take (min 16 n) = Y at eread
    have hXl : Y.length = min 16 n := by rw [← hX, List.length_take, List.length_drop]; omega
    have hDl : D.length = n := by show (List.take _ _).length = _; rw [List.length_take, List.length_drop]; omega
    obtain ⟨g1, e1, hg1⟩ := decrypt_run hg hC Y (by rw [hXl]; omega)
    rw [← List.length_append] at hg1
    generalize hP : gctr (Spec.Gcm.aes fun i => key[i.val]) (counter (inc32 (J0 iv.toList)) (C.length / 16)) Y = P at e1
    have hPl : P.length = min 16 n := by rw [← hP, gctr_length, hXl]
    obtain ⟨rx1, e2, hq1⟩ := hq.extend dbg P (by
      show app.length + pend.length + P.length ≤ cap
      rw [hPl]; omega)
    dsimp only at hq1
    unfold decryptLoop
    simp only [hdl]
    rw [hk, X.bind_ok (X.onFst_run (internal_ok eread) rx), e1, ofCipher_ok, pure_bind]
    dsimp only
    rw [X.bind_ok (extendRx_ok e2)]
    by_cases hlast : n ≤ 16
    · have hz : remain - dl = 0 := u16_ext (by rw [hsub]; show _ = 0; omega)
      rw [if_pos hz]
      have hmin : min 16 n = n := by omega
      have hXD : Y = D := by rw [← hX, hmin]
      have hPp : P = plain := by rw [← hP, hXD]
      have hPne : P ≠ [] := by
        intro e
        rw [e] at hPl
        simp only [List.length_nil] at hPl
        omega
      obtain ⟨rx2, e3, hq2⟩ := hq1.pop (append_ne_nil' _ hPne)
      dsimp only at e3
      rw [X.bind_ok (popContentType_ok e3)]
      refine ⟨w.tick, g1, rd + dl, rx2, ?_, hs.tick, ?_, ?_, ?_⟩
      · rw [← hPp, List.getLast_append_of_ne_nil _ hPne, List.getLast?_eq_some_getLast hPne]
        rfl
      · rw [hrd', hmin]
      · rw [← hXD]; exact hg1
      · rw [← hPp]; exact hq2
    · have hz : remain - dl ≠ 0 := by
        rw [u16_ne_zero, hsub]; omega
      rw [if_neg hz]
      have hmin : min 16 n = 16 := by omega
      rw [hmin] at hXl hPl hrd' hsub hX
      obtain ⟨w', g', rd', rx', f1, f2, f3, f4, f5⟩ := ih (n - 16) w.tick (q + 16) (rd + dl) (remain - dl) g1 (C ++ Y) (pend ++ P) rx1
        hs.tick hrd' (by omega) hsub (by omega) (by omega) (by omega) hg1 (by rw [List.length_append, hXl]; omega)
        (by rw [List.length_append, hXl]; omega) hq1 (by rw [List.length_append, hPl]; omega)
      have hDX : D = Y ++ ((w0.chip.received sn.idx).drop (q + 16)).take (n - 16) := by
        show (List.take _ _) = _
        rw [← hX, ← List.drop_drop]
        rw [show n = 16 + (n - 16) by omega, List.take_add]
        congr 2
        omega
      have hpl : plain = P ++ gctr (Spec.Gcm.aes fun i => key[i.val]) (counter (inc32 (J0 iv.toList)) ((C ++ Y).length / 16))
          (((w0.chip.received sn.idx).drop (q + 16)).take (n - 16)) := by
        show gctr _ _ D = _
        rw [hDX, gctr_append _ _ _ _ (by rw [hXl]), ← hP, List.length_append, hXl, ← counter_add]
        congr 3
        omega
      have hne : gctr (Spec.Gcm.aes fun i => key[i.val]) (counter (inc32 (J0 iv.toList)) ((C ++ Y).length / 16))
          (((w0.chip.received sn.idx).drop (q + 16)).take (n - 16)) ≠ [] := by
        apply gctr_ne_nil
        intro e
        have := congrArg List.length e
        rw [List.length_take, List.length_drop] at this
        simp only [List.length_nil] at this
        omega
      refine ⟨w', g', rd', rx', ?_, f2, ?_, ?_, ?_⟩
      · rw [f1, hpl, List.getLast?_append_of_ne_nil _ hne]
      · rw [f3]; congr 1; omega
      · rw [hDX, ← List.append_assoc]; exact f4
      · rw [hpl, ← List.append_assoc]; exact f5

/-! ## The tag -/

theorem checkTag_run {w0 w : World} {sn : Sn} {base p q : Nat} (ct : Except UInt8 ContentType) (g : Aes128Gcm) (rd : UInt16)
    (hs : Sock w0 w sn.idx base p) (hrd : rd.toNat = (base + q) % 65536) (hpq : p ≤ q)
    (hlen : q + 16 ≤ (w0.chip.received sn.idx).length) :
    ∃ w', checkTag worldBus sn ct g rd w
        = (if g.finish.toList = ((w0.chip.received sn.idx).drop q).take 16 then .ok ct else .error (.err .badRecordMac), w') ∧
      Sock w0 w' sn.idx base (q + 16) ∧ w'.chip.rxRd sn.idx = (base + (q + 16)) % 65536 := by
  have hrd' : (rd + 16).toNat = (base + (q + 16)) % 65536 := by
    rw [UInt16.toNat_add, hrd, show (16 : UInt16).toNat = 16 from rfl]; omega
  obtain ⟨w1, e1, h1⟩ := hs.tick.setRd (rd + 16)
  obtain ⟨w2, w3, e2, e3, h3, h4⟩ := h1.consume (rd + 16) (q + 16) hrd' (by omega) (by omega)
  refine ⟨w3, ?_, h3, h4⟩
  unfold checkTag
  rw [X.bind_ok (internal_ok (hs.read rd q 16 hrd hpq hlen)), X.bind_ok (internal_ok e1), X.bind_ok (internal_ok e2),
    X.bind_ok (internal_ok e3)]
  split <;> rfl

/-- `decrypt_record_inplace` on a record that has arrived is authenticated decryption. -/
theorem decryptRecordInplace_run (dbg : Bool) {w0 w : World} {sn : Sn} {base p m cap : Nat} {app pend : Bytes} {rx : Buffer}
    (key : Block) (iv : Vector UInt8 12) (header : RecordHeader)
    (hs : Sock w0 w sn.idx base p) (hrd : w.chip.rxRd sn.idx = (base + p) % 65536) (hm : (RecordHeader.length header).toNat = m)
    (hm17 : 17 ≤ m) (hlen : p + m ≤ (w0.chip.received sn.idx).length) (hq : QRel rx ⟨cap, app, pend⟩) (hcap : app.length + pend.length + (m - 16) ≤ cap) :
    let record := ((w0.chip.received sn.idx).drop p).take m
    let E := Spec.Gcm.aes fun i => key[i.val]
    let plain := Spec.Gcm.crypt E iv.toList (record.take (m - 16))
    ∃ w' rx', decryptRecordInplace dbg worldBus sn key iv header (w, rx)
        = (match Spec.Gcm.ad E iv.toList header.toList (record.take (m - 16)) (record.drop (m - 16)) with
            | some inner => .ok (ContentType.tryFrom (inner.getLast?.getD 0))
            | none => .error (.err .badRecordMac), (w', rx')) ∧
      Sock w0 w' sn.idx base (p + m) ∧ w'.chip.rxRd sn.idx = (base + (p + m)) % 65536 ∧ QRel rx' ⟨cap, app, (pend ++ plain).dropLast⟩ := by
  intro record E plain
  have hlt := u16_lt (RecordHeader.length header)
  have hs1 := hs.tick
  have hs2 := hs1.tick
  have h1 : RxAt w.tick.chip sn.idx base p := ⟨hs1.rx, by rw [tick_rxRd]; exact hrd⟩
  have h2 : RxAt w.tick.tick.chip sn.idx base p := h1.tick
  have hrsr := h1.rsr_toNat
  have hle := hs1.pre.length_le
  have hc1 : ¬ UInt16.ofNat (w.tick.chip.rxRsr sn.idx) < RecordHeader.length header := by
    rw [UInt16.lt_iff_toNat_lt, hrsr, hm]; omega
  have hptr : (UInt16.ofNat (w.tick.tick.chip.rxRd sn.idx)).toNat = (base + p) % 65536 := by
    rw [ofNat16_toNat (by rw [h2.rd]; omega), h2.rd]
  have hc2 : (16 : UInt16) ≤ RecordHeader.length header := by
    rw [UInt16.le_iff_toNat_le, hm]; show 16 ≤ m; omega
  have hrem : (RecordHeader.length header - 16).toNat = m - 16 := by
    rw [u16_sub_toNat, hm, show (16 : UInt16).toNat = 16 from rfl]; omega
  have hc3 : RecordHeader.length header - 16 ≠ 0 := by rw [u16_ne_zero, hrem]; omega
  obtain ⟨w3, g, rd, rx3, e3, hs3, hrd3, hg, hq3⟩ := decryptLoop_run dbg sn w0 base p cap app (RecordHeader.length header - 16).toNat (m - 16)
    w.tick.tick p _ (RecordHeader.length header - 16) _ [] pend rx hs2 hptr (Nat.le_refl _) hrem (by omega) (by omega) (by omega)
    (new_inv key iv header) rfl (by simp only [List.length_nil]; omega) hq hcap
  have hrt : record.take (m - 16) = ((w0.chip.received sn.idx).drop p).take (m - 16) := by
    show (List.take _ (List.take _ _)) = _
    rw [List.take_take]; congr 1; omega
  have hrdp : record.drop (m - 16) = ((w0.chip.received sn.idx).drop (p + (m - 16))).take 16 := by
    show (List.drop _ (List.take _ _)) = _
    rw [List.drop_take, List.drop_drop]; congr 1; omega
  rw [← hrt] at e3 hg hq3
  rw [List.nil_append] at hg
  simp only [List.length_nil, Nat.zero_div] at e3 hq3
  have htl : (record.take (m - 16)).length = m - 16 := by
    rw [hrt, List.length_take, List.length_drop]; omega
  have hfin := finish_run hg (by rw [htl]; omega)
  obtain ⟨w4, e4, hs4, hrd4⟩ := checkTag_run (ContentType.tryFrom (plain.getLast?.getD 0)) g rd hs3 hrd3 (by omega) (by omega)
  have em : p + (m - 16) + 16 = p + m := by omega
  rw [em] at hs4 hrd4
  refine ⟨w4, rx3, ?_, hs4, hrd4, hq3⟩
  unfold decryptRecordInplace
  rw [X.bind_ok (X.onFst_run (internal_ok (run_snRxRsr sn w)) rx), if_neg hc1,
    X.bind_ok (X.onFst_run (internal_ok (run_snRxRd sn w.tick)) rx)]
  simp only [if_pos hc2]
  rw [if_neg hc3, X.bind_ok e3]
  refine (X.onFst_run e4 rx3).trans ?_
  rw [← hrdp, hfin]
  unfold Spec.Gcm.ad
  by_cases hT : record.drop (m - 16) = Spec.Gcm.tag E iv.toList header.toList (record.take (m - 16))
  · rw [if_pos hT.symm, if_pos hT]
  · rw [if_neg (fun h => hT h.symm), if_neg hT]

/-! ## The header -/

variable {x : Crypto}

theorem onBus_ok' {σ α : Type} {m : M σ α} {s s' : σ} {a : α} (h : m s = (.ok a, s')) (c : Client x) :
    onBus m (s, c) = (.ok a, (s', c)) := X.onFst_run (internal_ok h) c

theorem onHl_ok' {σ α : Type} {m : M σ α} {s s' : σ} {a : α} (h : m s = (.ok a, s')) (c : Client x) :
    onHl m (s, c) = (.ok a, (s', c)) := X.onFst_run (X.mapErr_ok (X.ofM_ok h)) c

theorem onHl_panic {σ α : Type} {m : M σ α} {s s' : σ} (h : m s = (.error .panic, s')) (c : Client x) :
    onHl m (s, c) = (.error (.stop .panic), (s', c)) := X.onFst_run (X.mapErr_error (X.ofM_error h)) c

theorem toHeader_toList (l : Bytes) (h : l.length = 5) : (toHeader l).toList = l := by
  match l, h with
  | [_, _, _, _, _], _ => rfl

/-- Making a reader when something has arrived. -/
theorem tcpReader_sock (dbg : Bool) {w0 w : World} {sn : Sn} {base p : Nat} (hs : Sock w0 w sn.idx base p)
    (hrd : w.chip.rxRd sn.idx = (base + p) % 65536) (hl : p < (w0.chip.received sn.idx).length) :
    (∃ w', dbg = true ∧ tcpReader dbg worldBus sn w = (.error .panic, w')) ∨
    ∃ w' r, tcpReader dbg worldBus sn w = (.ok r, w') ∧ Sock w0 w' sn.idx base p ∧ w'.chip.rxRd sn.idx = (base + p) % 65536 ∧
      r.sn = sn ∧ r.head.toNat = (base + p) % 65536 ∧ r.ptr = r.head ∧
      ∃ L, L + p ≤ 65535 + p ∧ (w0.chip.received sn.idx).length ≤ p + L ∧ p + L ≤ (w'.chip.received sn.idx).length ∧
        r.streamLen.toNat = L ∧ r.remain.toNat = L := by
  obtain ⟨w1, hw1, hd⟩ := run_debugAssert dbg _ w (run_notUdpInitMacraw sn w)
  have hs1 := hs.of_or hw1
  have hrd1 : w1.chip.rxRd sn.idx = (base + p) % 65536 := by
    rcases hw1 with rfl | rfl
    · exact hrd
    · rw [tick_rxRd]; exact hrd
  unfold tcpReader
  rcases hd with hd | ⟨hdbg, hd⟩
  · right
    have hs2 := hs1.tick
    have hs3 := hs2.tick
    have h2 : RxAt w1.tick.chip sn.idx base p := ⟨hs2.rx, by rw [tick_rxRd]; exact hrd1⟩
    have h3 : RxAt w1.tick.tick.chip sn.idx base p := h2.tick
    have hrsr := h2.rsr_toNat
    have hle := hs2.pre.length_le
    have hle3 := (tick_received_prefix w1.tick sn.idx).length_le
    have hb := u16_lt (UInt16.ofNat (w1.tick.chip.rxRsr sn.idx))
    have hne : UInt16.ofNat (w1.tick.chip.rxRsr sn.idx) ≠ 0 := by rw [u16_ne_zero, hrsr]; omega
    have hptr : (UInt16.ofNat (w1.tick.tick.chip.rxRd sn.idx)).toNat = (base + p) % 65536 := by
      rw [ofNat16_toNat (by rw [h3.rd]; omega), h3.rd]
    rw [M.bind_ok hd, M.bind_ok (run_snRxRsr sn w1), if_neg hne, M.bind_ok (run_snRxRd sn w1.tick)]
    have hsub : ∀ a b : UInt16, a + b - a = b := by
      intro a b
      apply u16_ext
      have := u16_lt a; have := u16_lt b
      rw [u16_sub_toNat, UInt16.toNat_add]
      omega
    refine ⟨w1.tick.tick, _, rfl, hs3, h3.rd, rfl, hptr, rfl, (w1.tick.chip.received sn.idx).length - p, by omega, by omega, by omega,
      ?_, ?_⟩
    · show (_ + _ - _ : UInt16).toNat = _
      rw [hsub, hrsr]
    · show (_ + _ - _ : UInt16).toNat = _
      rw [hsub, hrsr]
  · left
    exact ⟨w1, hdbg, M.bind_error hd⟩

/-- The header of a record that has arrived is removed. -/
theorem recvHeader_run (dbg : Bool) {w0 w : World} {base p m : Nat} (c : Client x) (hb : Bytes) (ct : ContentType)
    (hs : Sock w0 w c.sn.idx base p) (hrd : w.chip.rxRd c.sn.idx = (base + p) % 65536)
    (hbytes : ((w0.chip.received c.sn.idx).drop p).take 5 = hb)
    (hct : ContentType.tryFrom (hb.getD 0 0) = .ok ct) (hm : (be16 (hb.getD 3 0) (hb.getD 4 0)).toNat = m)
    (hlim : m ≤ c.recordSizeLimit.toNat) (hlen : p + 5 + m ≤ (w0.chip.received c.sn.idx).length) :
    (∃ w', dbg = true ∧ recvHeader dbg worldBus (w, c) = (.error (.stop .panic), (w', c))) ∨
    ∃ w', recvHeader dbg worldBus (w, c) = (.ok (some (toHeader hb)), (w', c)) ∧ Sock w0 w' c.sn.idx base (p + 5) ∧
      w'.chip.rxRd c.sn.idx = (base + (p + 5)) % 65536 := by
  unfold recvHeader
  rw [X.bind_ok (getC_run (w, c))]
  rcases tcpReader_sock dbg hs hrd (by omega) with ⟨w1, hdbg, e1⟩ | ⟨w1, r, e1, hs1, hrd1, hsn, hhead, hptr, L, hL, hL1, hL2, hsl, hrem⟩
  · exact .inl ⟨w1, hdbg, X.bind_error (onHl_panic e1 c)⟩
  right
  have hmin : min16 r.remain (lenU16 5) = 5 := by
    apply u16_ext
    rw [min16_toNat, hrem, lenU16_toNat]
    show _ = 5
    omega
  have hp0 : r.ptr.toNat = (base + p) % 65536 := by rw [hptr]; exact hhead
  have e2 : tcpReaderReadExact worldBus r 5 w1 = (.ok (hb, { r with ptr := r.ptr + 5 }), w1.tick) := by
    unfold tcpReaderReadExact
    simp only [hmin]
    rw [if_neg (by decide), hsn, M.bind_ok (hs1.read r.ptr p 5 hp0 (Nat.le_refl _) (by omega)), hbytes]
    rfl
  have hlenEq : RecordHeader.length (toHeader hb) = be16 (hb.getD 3 0) (hb.getD 4 0) := rfl
  have hdes : RecordHeader.deser (toHeader hb) = .ok (toHeader hb) := by
    unfold RecordHeader.deser
    have : (toHeader hb)[0] = hb.getD 0 0 := rfl
    rw [this, hct]
  obtain ⟨w2, w3, e3, e4, hs3, hrd3⟩ := hs1.tick.consume (r.ptr + 5) (p + 5)
    (by rw [UInt16.toNat_add, hp0, show (5 : UInt16).toNat = 5 from rfl]; omega) (by omega) (by omega)
  have e5 : tcpReaderDone worldBus { r with ptr := r.ptr + 5 } w1.tick = (.ok (), w3) := by
    unfold tcpReaderDone
    dsimp only
    rw [hsn, M.bind_ok e3]
    exact e4
  refine ⟨w3, ?_, hs3, hrd3⟩
  rw [X.bind_ok (onHl_ok' e1 c), X.bind_ok (onHl_ok' e2 c)]
  dsimp only
  rw [hdes, show (X.ofExcept (Except.ok (toHeader hb)) : X AlertDescription (World × Client x) _) = pure (toHeader hb) from rfl, pure_bind,
    if_neg (by rw [GT.gt, UInt16.lt_iff_toNat_lt, hlenEq, hm]; omega),
    if_neg (by
      rw [show ({ r with ptr := r.ptr + 5 } : Ptrs).streamLen = r.streamLen from rfl, hsl, hlenEq, hm]
      omega),
    X.bind_ok (onBus_ok' e5 c)]
  rfl

/-- A header that announces more than the limit. -/
theorem recvHeader_overflow (dbg : Bool) {w0 w : World} {base p m : Nat} (c : Client x) (hb : Bytes) (ct : ContentType)
    (hs : Sock w0 w c.sn.idx base p) (hrd : w.chip.rxRd c.sn.idx = (base + p) % 65536)
    (hbytes : ((w0.chip.received c.sn.idx).drop p).take 5 = hb)
    (hct : ContentType.tryFrom (hb.getD 0 0) = .ok ct) (hm : (be16 (hb.getD 3 0) (hb.getD 4 0)).toNat = m)
    (hlim : c.recordSizeLimit.toNat < m) (hlen : p + 5 ≤ (w0.chip.received c.sn.idx).length) :
    (∃ w', dbg = true ∧ recvHeader dbg worldBus (w, c) = (.error (.stop .panic), (w', c))) ∨
    ∃ w', recvHeader dbg worldBus (w, c) = (.error (.err .recordOverflow), (w', c)) ∧ Sock w0 w' c.sn.idx base p := by
  unfold recvHeader
  rw [X.bind_ok (getC_run (w, c))]
  rcases tcpReader_sock dbg hs hrd (by omega) with ⟨w1, hdbg, e1⟩ | ⟨w1, r, e1, hs1, hrd1, hsn, hhead, hptr, L, hL, hL1, hL2, hsl, hrem⟩
  · exact .inl ⟨w1, hdbg, X.bind_error (onHl_panic e1 c)⟩
  right
  have hmin : min16 r.remain (lenU16 5) = 5 := by
    apply u16_ext
    rw [min16_toNat, hrem, lenU16_toNat]
    show _ = 5
    omega
  have hp0 : r.ptr.toNat = (base + p) % 65536 := by rw [hptr]; exact hhead
  have e2 : tcpReaderReadExact worldBus r 5 w1 = (.ok (hb, { r with ptr := r.ptr + 5 }), w1.tick) := by
    unfold tcpReaderReadExact
    simp only [hmin]
    rw [if_neg (by decide), hsn, M.bind_ok (hs1.read r.ptr p 5 hp0 (Nat.le_refl _) (by omega)), hbytes]
    rfl
  have hlenEq : RecordHeader.length (toHeader hb) = be16 (hb.getD 3 0) (hb.getD 4 0) := rfl
  have hdes : RecordHeader.deser (toHeader hb) = .ok (toHeader hb) := by
    unfold RecordHeader.deser
    have : (toHeader hb)[0] = hb.getD 0 0 := rfl
    rw [this, hct]
  refine ⟨w1.tick, ?_, hs1.tick⟩
  rw [X.bind_ok (onHl_ok' e1 c), X.bind_ok (onHl_ok' e2 c)]
  dsimp only
  rw [hdes, show (X.ofExcept (Except.ok (toHeader hb)) : X AlertDescription (World × Client x) _) = pure (toHeader hb) from rfl, pure_bind,
    if_pos (by rw [GT.gt, UInt16.lt_iff_toNat_lt, hlenEq, hm]; exact hlim)]
  rfl

/-! ## Alerts -/

theorem onBus_err {σ α : Type} {m : M σ α} {s s' : σ} (h : m s = (.error .outOfMemory, s')) (c : Client x) :
    onBus m (s, c) = (.error (.err .internalError), (s', c)) := X.onFst_run (X.mapErr_error (X.ofM_error h)) c

theorem onHl_err {σ α : Type} {m : M σ α} {s s' : σ} (h : m s = (.error .outOfMemory, s')) (c : Client x) :
    onHl m (s, c) = (.error (.err .internalError), (s', c)) := X.onFst_run (X.mapErr_error (X.ofM_error h)) c

/-- The record of an alert: protected if there are keys. -/
def alertRecord (ks : KeySchedule x) (level : AlertLevel) (description : AlertDescription) : Bytes :=
  match ks.serverTraffic, ks.clientTraffic with
  | some _, some t => Spec.Tls.protect t ks.writeSeq.toNat ContentType.alert.code [level.code, description.code]
  | _, _ => [ContentType.alert.code, 3, 3, 0, 2, level.code, description.code]

theorem protect_length (t : Bytes) (n : Nat) (ty : UInt8) (d : Bytes) : (Spec.Tls.protect t n ty d).length = d.length + 22 := by
  unfold Spec.Tls.protect Spec.Tls.protectedHeader Spec.Gcm.ae Spec.Gcm.crypt Spec.Gcm.tag
  simp only [List.length_append, gctr_length, u16_len, List.length_cons, List.length_nil]
  simp [Spec.Gcm.bytes]
  omega

theorem trySendAlert_run (hx : x.Standard) {w : World} (c : Client x) (level : AlertLevel) (description : AlertDescription)
    (h : TxState w.chip c.sn.idx) (hk : c.ks.serverTraffic.isSome → c.ks.clientTraffic.isSome) :
    (∃ w', trySendAlert worldBus level description (w, c) = (.ok (), (w', c)) ∧ TxState w'.chip c.sn.idx ∧
      w'.chip.sent = w.chip.sent ++
        [⟨c.sn.idx, w.chip.destIp c.sn.idx, w.chip.destPort c.sn.idx, alertRecord c.ks level description⟩]) ∨
    (∃ w', trySendAlert worldBus level description (w, c) = (.error (.err .internalError), (w', c)) ∧ w'.chip.sent = w.chip.sent ∧
      w.chip.txFsr c.sn.idx < (alertRecord c.ks level description).length) := by
  unfold trySendAlert
  rw [X.bind_ok (getC_run (w, c))]
  dsimp only
  rcases hs : c.ks.serverTraffic with _ | s
  · rw [if_neg (by simp)]
    have ha : alertRecord c.ks level description = [ContentType.alert.code, 3, 3, 0, 2, level.code, description.code] := by
      unfold alertRecord; rw [hs]
    rw [ha]
    generalize hbs : [ContentType.alert.code, 3, 3, 0, 2, level.code, description.code] = bs
    have he := emitSend_run' h (piecesProg_emits [bs] 0)
    rw [← sendPieces_eq, show [bs].flatten = bs by simp] at he
    obtain ⟨r, img, e0, -, -, -, -⟩ := run_socketWriter h
    have hp : sendPieces worldBus c.sn [bs] w = (writerWriteAll worldBus r bs >>= writerSend worldBus) w.tick := by
      unfold sendPieces
      rw [M.bind_ok e0]
      simp only [writePieces, bind_assoc, pure_bind]
    rw [X.bind_ok (onBus_ok' e0 c)]
    rw [hp] at he
    rcases h1 : writerWriteAll worldBus r bs w.tick with ⟨e | r1, w1⟩
    · rw [M.bind_error h1] at he
      rcases he with ⟨w', he, _⟩ | ⟨w', he, he2, he3⟩
      · simp at he
      · right
        simp only [Prod.mk.injEq, Except.error.injEq] at he
        rw [he.1] at h1
        exact ⟨w1, X.bind_error (onHl_err h1 c), by rw [he.2]; exact he2, he3⟩
    · rw [M.bind_ok h1] at he
      rw [X.bind_ok (onHl_ok' h1 c)]
      rcases he with ⟨w', he, he2, -, he3⟩ | ⟨w', he, he2, he3⟩
      · exact .inl ⟨w', onBus_ok' he c, he2, he3⟩
      · exact .inr ⟨w', onBus_err he c, he2, he3⟩
  · rw [if_pos (by simp)]
    obtain ⟨t, ht⟩ := Option.isSome_iff_exists.mp (hk (by rw [hs]; rfl))
    have ha : alertRecord c.ks level description
        = Spec.Tls.protect t c.ks.writeSeq.toNat ContentType.alert.code [level.code, description.code] := by
      unfold alertRecord; rw [hs, ht]
    rw [ha, protect_length]
    rcases sendRecord_run hx w c t .alert [level.code, description.code] h ht (by simp) with ⟨w', e1, e2, -, e4⟩ | ⟨w', e1, e2, e3⟩
    · exact .inl ⟨w', X.mapErr_ok e1, e2, e4⟩
    · exact .inr ⟨w', X.mapErr_error e1, e2, e3⟩

/-- A fatal alert: the record is transmitted if it fits, and the keys are gone. -/
theorem failFatal_run (hx : x.Standard) {α : Type} {w : World} (c : Client x) (description : AlertDescription) (secs : UInt32)
    (h : TxState w.chip c.sn.idx) (hk : c.ks.serverTraffic.isSome → c.ks.clientTraffic.isSome) :
    ∃ w' c', (failFatal worldBus description secs : X TErr (World × Client x) α) (w, c)
        = (.error (.err (.client (Alert.newFatal description))), (w', c')) ∧
      c'.rx = c.rx ∧ c'.sn = c.sn ∧ c'.ks = KeySchedule.default x ∧ c'.timeout = some secs ∧
      ((c'.state = .waitAlertSendOk ∧ w'.chip.sent = w.chip.sent ++
          [⟨c.sn.idx, w.chip.destIp c.sn.idx, w.chip.destPort c.sn.idx, alertRecord c.ks .fatal description⟩]) ∨
        (c'.state = .sendDiscon ∧ w'.chip.sent = w.chip.sent ∧
          w.chip.txFsr c.sn.idx < (alertRecord c.ks .fatal description).length)) := by
  unfold failFatal sendAlert
  rcases trySendAlert_run hx c .fatal description h hk with ⟨w', e1, e2, e3⟩ | ⟨w', e1, e2, e3⟩
  · refine ⟨w', c.resetKeys.resetKeys.setStateWithTimeout .waitAlertSendOk secs, ?_, rfl, rfl, rfl, rfl, .inl ⟨rfl, e3⟩⟩
    rw [bind_assoc, X.bind_ok (X.attempt_ok e1)]
    rfl
  · refine ⟨w', c.resetKeys.setStateSendDiscon secs, ?_, rfl, rfl, rfl, rfl, .inr ⟨rfl, e2, e3⟩⟩
    rw [bind_assoc, X.bind_ok (X.attempt_err e1)]
    rfl

/-! ## The record -/

theorem orFatal_ok {σ α : Type} {b : Bus σ} {secs : UInt32} {m : X AlertDescription (σ × Client x) α} {s s' : σ × Client x} {a : α}
    (h : m s = (.ok a, s')) : orFatal b secs m s = (.ok a, s') := by
  unfold orFatal
  rw [X.bind_ok (X.attempt_ok h)]
  rfl

theorem orFatal_err {σ α : Type} {b : Bus σ} {secs : UInt32} {m : X AlertDescription (σ × Client x) α} {s s' : σ × Client x}
    {e : AlertDescription} (h : m s = (.error (.err e), s')) : orFatal b secs m s = failFatal b e secs s' := by
  unfold orFatal
  rw [X.bind_ok (X.attempt_err h)]

theorem orFatal_stop {σ α : Type} {b : Bus σ} {secs : UInt32} {m : X AlertDescription (σ × Client x) α} {s s' : σ × Client x}
    {e : Err} (h : m s = (.error (.stop e), s')) : orFatal b secs m s = (.error (.stop e), s') := by
  unfold orFatal
  have : (m.attempt : X TErr _ _) s = (.error (.stop e), s') := by unfold X.attempt; rw [h]
  rw [X.bind_error this]

theorem onRx_run {ε σ α : Type} {m : X ε (σ × Buffer) α} {s s' : σ} {c : Client x} {rx : Buffer} {r : Except (Fail ε) α}
    (h : m (s, c.rx) = (r, (s', rx))) : onRx m (s, c) = (r, (s', { c with rx })) := by
  unfold onRx
  dsimp only
  rw [h]

theorem unprotect_eq (hx : x.Standard) (t : Bytes) (seq : UInt64) (header record : Bytes) :
    Spec.Gcm.ad (Spec.Gcm.aes fun i => (KeySchedule.keyAndNonce x t seq).1[i.val]) (KeySchedule.keyAndNonce x t seq).2.toList header
      (record.take (record.length - 16)) (record.drop (record.length - 16)) = Spec.Tls.unprotect t seq.toNat header record := by
  rw [cipher_eq hx, (C79_key_and_nonce hx t seq).2]
  rfl

theorem crypt_of_ad {E : Nat → Nat} {iv a cs tg inner : Bytes} (h : Spec.Gcm.ad E iv a cs tg = some inner) :
    Spec.Gcm.crypt E iv cs = inner := by
  unfold Spec.Gcm.ad at h
  split at h
  · exact Option.some.inj h
  · cases h

/-- The fragment test when no record is being received. -/
theorem QRel.noFragment {b : Buffer} {cap : Nat} {app : Bytes} (h : QRel b ⟨cap, app, []⟩) : b.containsHandshakeFragment = false := by
  unfold Buffer.containsHandshakeFragment
  have h1 := h.adTail; have h2 := h.tail
  simp only [Queue.size, List.length_nil, Nat.add_zero] at h2
  rw [h1, h2]
  simp

theorem failFatal_bind {σ α β : Type} (b : Bus σ) (d : AlertDescription) (secs : UInt32) (f : α → X TErr (σ × Client x) β) :
    (failFatal b d secs >>= f) = failFatal b d secs := by
  unfold failFatal
  rw [bind_assoc]
  rfl

theorem throw_ne {ε σ α : Type} (e : ε) (s s' : σ) (a : α) : (X.throw e : X ε σ α) s ≠ (.ok a, s') := by
  intro h
  have := congrArg Prod.fst h
  simp [X.throw] at this

theorem bind_ne {ε σ α β : Type} (m : X ε σ α) (f : α → X ε σ β) (b : β) (h : ∀ a s s', f a s ≠ (.ok b, s')) (s s' : σ) :
    (m >>= f) s ≠ (.ok b, s') := by
  rw [X.bind_run]
  rcases m s with ⟨e | a, s1⟩
  · intro h
    have := congrArg Prod.fst h
    simp at this
  · exact h a s1 s'

theorem pure_ne {ε σ α : Type} {a b : α} (h : a ≠ b) (s s' : σ) : (pure a : X ε σ α) s ≠ (.ok b, s') := by
  intro e
  have := congrArg Prod.fst e
  simp [X.pure_run] at this
  exact h this

/-- Nothing but the content of a record is an event for the application. -/
theorem recvContent_some {σ : Type} (b : Bus σ) (fuel : Nat) (secs : UInt32) (header : RecordHeader) (ct : ContentType) (hc : ct ≠ .applicationData)
    (ha : ct ≠ .alert) (s s' : σ × Client x) (ev : TEvent) : recvContent fuel b secs header ct s ≠ (.ok (some ev), s') := by
  cases ct with
  | alert => exact absurd rfl ha
  | applicationData => exact absurd rfl hc
  | changeCipherSpec => exact bind_ne _ _ _ (fun _ s s' => pure_ne (by simp) s s') _ _
  | handshake => exact bind_ne _ _ _ (fun _ s s' => pure_ne (by simp) s s') _ _

theorem failFatal_ne {σ α : Type} (b : Bus σ) (d : AlertDescription) (secs : UInt32) (s s' : σ × Client x) (a : α) :
    failFatal b d secs s ≠ (.ok a, s') := bind_ne _ _ _ (fun _ s s' => throw_ne _ s s' a) _ _

theorem failAlert_ne {σ α : Type} (dbg : Bool) (b : Bus σ) (header : RecordHeader) (s s' : σ × Client x) (a : α) :
    failAlert dbg b header s ≠ (.ok a, s') := by
  unfold failAlert
  apply bind_ne
  intro _ s s'
  split
  · apply bind_ne
    intro _ s s'
    apply bind_ne
    intro _ s s'
    apply bind_ne
    intro _ s s'
    exact throw_ne _ _ _ _
  · apply bind_ne
    intro y s s'
    cases y with
    | none =>
      apply bind_ne
      intro _ s s'
      exact throw_ne _ _ _ _
    | some y =>
      dsimp only
      cases AlertDescription.tryFrom y with
      | error e => exact throw_ne _ _ _ _
      | ok d =>
        dsimp only
        unfold recvAlertLevel
        apply bind_ne
        intro y s s'
        apply bind_ne
        intro _ s s'
        cases y <;> exact throw_ne _ _ _ _

theorem recvRecord_some {σ : Type} (dbg : Bool) (fuel : Nat) (b : Bus σ) (secs : UInt32) (header : RecordHeader) (outer ct : ContentType)
    (fragment : Bool) (s : σ × Client x) (hc : ct ≠ .applicationData) (ev : TEvent) (s' : σ × Client x) :
    recvRecord dbg fuel b secs header outer ct fragment s ≠ (.ok (some ev), s') := by
  unfold recvRecord
  split
  · exact failFatal_ne _ _ _ _ _ _
  · split
    · exact failAlert_ne _ _ _ _ _ _
    · rename_i ha
      intro h
      rw [X.bind_run] at h
      rcases hr : recvContent fuel b secs header ct s with ⟨e | r, s1⟩
      · cases e with
        | err e =>
          rw [X.attempt_err hr] at h
          dsimp only at h
          revert h
          apply bind_ne
          intro _ s s' h
          have := congrArg Prod.fst h
          simp [X.ofExcept, Except.mapError] at this
        | stop e =>
          unfold X.attempt at h
          rw [hr] at h
          simp at h
        | noKey =>
          unfold X.attempt at h
          rw [hr] at h
          simp at h
      · rw [X.attempt_ok hr] at h
        dsimp only at h
        cases r with
        | some ev => exact recvContent_some _ _ _ _ _ hc ha _ _ _ hr
        | none =>
          revert h
          apply bind_ne
          intro _ s s' h
          have := congrArg Prod.fst h
          simp [X.ofExcept, Except.mapError] at this

/-- The heads of the buffer do not move. -/
def Heads (h hs : Nat) (b : Buffer) : Prop := b.head = h ∧ b.hsHead = hs

theorem extend_heads {dbg : Bool} {b b' : Buffer} {src : Bytes} (he : b.extendFromSlice dbg src = .ok b') :
    b'.head = b.head ∧ b'.hsHead = b.hsHead := by
  unfold Buffer.extendFromSlice at he
  split at he
  · cases he
  · simp only at he
    split at he
    · cases he
    · split at he
      · cases he
      · injection he with he; subst he; exact ⟨rfl, rfl⟩

theorem popTail_heads {b b' : Buffer} {y : UInt8} (he : b.popTail = some (y, b')) : b'.head = b.head ∧ b'.hsHead = b.hsHead := by
  unfold Buffer.popTail at he
  split at he
  · cases he
  · injection he with he
    injection he with _ he
    subst he
    exact ⟨rfl, rfl⟩

theorem extendRx_run {σ : Type} (dbg : Bool) (src : Bytes) (s : σ × Buffer) :
    extendRx dbg src s = match s.2.extendFromSlice dbg src with
      | .ok rx => (.ok (), (s.1, rx))
      | .error e => (.error e, s) := by
  unfold extendRx
  rw [X.bind_run]
  show (X.ofExcept (s.2.extendFromSlice dbg src) >>= fun rx => X.modify fun s => (s.1, rx)) s = _
  rw [X.bind_run]
  unfold X.ofExcept
  cases s.2.extendFromSlice dbg src <;> rfl

theorem extendRx_heads {σ : Type} (h hs : Nat) (dbg : Bool) (src : Bytes) :
    Tri (Heads h hs) (extendRx dbg src : X _ (σ × Buffer) Unit) (fun _ => Heads h hs) (Heads h hs) := by
  intro s hh
  rw [extendRx_run]
  rcases he : s.2.extendFromSlice dbg src with (e | e | _) | rx
  · exact hh
  · trivial
  · exfalso
    unfold Buffer.extendFromSlice at he
    split at he
    · simp at he
    · dsimp only at he
      split at he
      · simp at he
      · split at he <;> simp at he
  · exact ⟨(extend_heads he).1.trans hh.1, (extend_heads he).2.trans hh.2⟩

theorem popTailRx_heads {σ ε : Type} (h hs : Nat) :
    Tri (Heads h hs) (popTailRx : X ε (σ × Buffer) _) (fun _ => Heads h hs) (Heads h hs) := by
  intro s hh
  unfold popTailRx
  rcases he : s.2.popTail with _ | ⟨y, rx⟩
  · exact hh
  · exact ⟨(popTail_heads he).1.trans hh.1, (popTail_heads he).2.trans hh.2⟩

theorem decryptLoop_heads {σ : Type} (h hs : Nat) (dbg : Bool) (b : Bus σ) (sn : Sn) (fuel : Nat) : ∀ g rd remain,
    Tri (Heads h hs) (decryptLoop dbg b sn fuel g rd remain) (fun _ => Heads h hs) (Heads h hs) := by
  induction fuel with
  | zero => intros; exact Tri.stop _
  | succ fuel ih =>
    intro g rd remain
    refine (Tri.onFst (NK.internal _)).bind fun _ => (Tri.ofCipher (Q := fun _ => Heads h hs) fun _ _ _ h => h).bind fun _ =>
      (extendRx_heads h hs _ _).bind fun _ => Tri.ite (fun _ => ?_) fun _ => ih _ _ _
    refine Tri.bind (R := fun _ => Heads h hs) ((popTailRx_heads h hs).bind fun byte => ?_) fun _ => Tri.pure _ fun _ h => h
    cases byte with
    | none => exact Tri.stop _
    | some byte => exact Tri.pure _ fun _ h => h

theorem decryptRecord_heads {σ : Type} (dbg : Bool) (b : Bus σ) (sn : Sn) (key nonce header) (h hs : Nat) :
    Tri (Heads h hs) (decryptRecordInplace dbg b sn key nonce header) (fun _ => Heads h hs) (Heads h hs) := by
  refine (Tri.onFst (NK.internal _)).bind fun _ => Tri.ite (fun _ => Tri.throw _ fun _ h => h) fun _ =>
    (Tri.onFst (NK.internal _)).bind fun _ => Tri.ite (fun _ => Tri.throw _ fun _ h => h) fun _ =>
    (decryptLoop_heads h hs _ _ _ _ _ _ _).bind fun _ => Tri.onFst (NK.checkTag _ _ _ _ _)

/-- What `Client::recv` does with a protected record that has arrived. -/
theorem recv_run (hx : x.Standard) (dbg : Bool) (fuel : Nat) (secs : UInt32) {w0 w : World} {base p cap : Nat} {app : Bytes} (c : Client x)
    (header record : Bytes) (t : Bytes)
    (hs : Sock w0 w c.sn.idx base p) (hrd : w.chip.rxRd c.sn.idx = (base + p) % 65536)
    (hlen5 : header.length = 5) (hbytes : ((w0.chip.received c.sn.idx).drop p).take (5 + record.length) = header ++ record)
    (hct : header.getD 0 0 = 23) (hm : (be16 (header.getD 3 0) (header.getD 4 0)).toNat = record.length)
    (h17 : 17 ≤ record.length) (hlim : record.length ≤ c.recordSizeLimit.toNat)
    (hq : QRel c.rx ⟨cap, app, []⟩) (hcap : app.length + (record.length - 16) ≤ cap)
    (hst : c.ks.serverTraffic = some t)
    (hseq : c.ks.readSeq.toNat + 1 < 2 ^ 64) :
    (∃ w', dbg = true ∧ recv dbg fuel worldBus secs (w, c) = (.error (.stop .panic), (w', c))) ∨
    (∃ w1 rx1 pend, Sock w0 w1 c.sn.idx base (p + 5 + record.length) ∧
      w1.chip.rxRd c.sn.idx = (base + (p + 5 + record.length)) % 65536 ∧ QRel rx1 ⟨cap, app, pend⟩ ∧
      (rx1.head = c.rx.head ∧ rx1.hsHead = c.rx.hsHead) ∧
      (Spec.Tls.unprotect t c.ks.readSeq.toNat header record = none →
        recv dbg fuel worldBus secs (w, c) = failFatal worldBus .badRecordMac secs (w1, { c with rx := rx1 })) ∧
      (∀ inner, Spec.Tls.unprotect t c.ks.readSeq.toNat header record = some inner →
        pend = inner.dropLast ∧ inner.length + 16 = record.length ∧
        (inner.getLast? = some 23 → c.state = .connected → ∃ rx2, QRel rx2 ⟨cap, app ++ inner.dropLast, []⟩ ∧
          recv dbg fuel worldBus secs (w, c) = (.ok (some .applicationData),
            (w1, { c with rx := rx2, ks := { c.ks with readSeq := c.ks.readSeq + 1 } }))) ∧
        (∀ e last, inner.getLast? = some last → ContentType.tryFrom last = .error e →
          recv dbg fuel worldBus secs (w, c) = failFatal worldBus .decodeError secs (w1, { c with rx := rx1 })) ∧
        (∀ ct last, inner.getLast? = some last → ContentType.tryFrom last = .ok ct → ct ≠ .applicationData →
          recv dbg fuel worldBus secs (w, c)
            = recvRecord dbg fuel worldBus secs (toHeader header) .applicationData ct false (w1, { c with rx := rx1 })))) := by
  have hbl := congrArg List.length hbytes
  simp only [List.length_take, List.length_drop, List.length_append, hlen5] at hbl
  have hh : ((w0.chip.received c.sn.idx).drop p).take 5 = header := by
    have := congrArg (List.take 5) hbytes
    rw [List.take_take, show min 5 (5 + record.length) = 5 by omega, ← hlen5, List.take_left] at this
    rw [← hlen5]; exact this
  have hr : ((w0.chip.received c.sn.idx).drop (p + 5)).take record.length = record := by
    have := congrArg (List.drop 5) hbytes
    rw [List.drop_take, List.drop_drop, show 5 + record.length - 5 = record.length by omega] at this
    rw [this, ← hlen5, List.drop_left]
  unfold recv
  rcases recvHeader_run dbg c header .applicationData hs hrd hh (by rw [hct]; rfl) hm hlim (by omega) with
    ⟨w', hdbg, e1⟩ | ⟨w', e1, hs1, hrd1⟩
  · exact .inl ⟨w', hdbg, X.bind_error (orFatal_stop e1)⟩
  right
  have hkn : c.ks.serverKeyAndNonce = some (KeySchedule.keyAndNonce x t c.ks.readSeq) := by
    unfold KeySchedule.serverKeyAndNonce; rw [hst]; rfl
  obtain ⟨w1, rx1, e2, hs2, hrd2, hq2⟩ := decryptRecordInplace_run dbg (m := record.length) (KeySchedule.keyAndNonce x t c.ks.readSeq).1
    (KeySchedule.keyAndNonce x t c.ks.readSeq).2 (toHeader header) hs1 hrd1 hm h17 (by omega) hq (by rw [List.length_nil, Nat.add_zero]; exact hcap)
  rw [List.nil_append] at hq2
  rw [hr, toHeader_toList _ hlen5, unprotect_eq hx] at e2
  rw [hr] at hq2
  have hheads := decryptRecord_heads dbg worldBus c.sn (KeySchedule.keyAndNonce x t c.ks.readSeq).1
    (KeySchedule.keyAndNonce x t c.ks.readSeq).2 (toHeader header) c.rx.head c.rx.hsHead (w', c.rx) ⟨rfl, rfl⟩
  rw [e2] at hheads
  have hheads : rx1.head = c.rx.head ∧ rx1.hsHead = c.rx.hsHead := by
    cases hu : Spec.Tls.unprotect t c.ks.readSeq.toNat header record <;> rw [hu] at hheads <;> exact hheads
  refine ⟨w1, rx1, _, hs2, hrd2, hq2, hheads, ?_, ?_⟩
  all_goals
    rw [X.bind_ok (orFatal_ok e1)]
    dsimp only
    rw [X.bind_ok (getC_run (w', c))]
    have hc2 : (toHeader header).contentType = some .applicationData := by
      unfold RecordHeader.contentType
      have : (toHeader header)[0] = header.getD 0 0 := rfl
      rw [this, hct]
      rfl
    simp only [hc2]
    have hbody : recvBody dbg worldBus secs (toHeader header) .applicationData (w', c)
        = ((orFatal worldBus secs (onRx (decryptRecordInplace dbg worldBus c.sn (KeySchedule.keyAndNonce x t c.ks.readSeq).1
            (KeySchedule.keyAndNonce x t c.ks.readSeq).2 (toHeader header))) >>= fun ct =>
          match ct with
          | .ok ct => pure ct
          | .error _ => failFatal worldBus .decodeError secs) : X TErr (World × Client x) ContentType) (w', c) := by
      unfold recvBody recvEncryptedBody
      rw [if_pos rfl, X.bind_ok (getC_run (w', c))]
      dsimp only
      rw [hkn]
      rfl
  · intro hn
    rw [hn] at e2
    have e3 := hbody.trans (X.bind_run _ _ _)
    rw [orFatal_err (onRx_run e2)] at e3
    have e4 : recvBody dbg worldBus secs (toHeader header) .applicationData (w', c)
        = failFatal worldBus .badRecordMac secs (w1, { c with rx := rx1 }) := by
      rw [e3]
      exact congrFun (failFatal_bind worldBus .badRecordMac secs fun ct : Except UInt8 ContentType =>
        match ct with
        | .ok ct => pure ct
        | .error _ => failFatal worldBus .decodeError secs) (w1, { c with rx := rx1 })
    rw [X.bind_run, e4]
    exact congrFun (failFatal_bind worldBus .badRecordMac secs _) (w1, { c with rx := rx1 })
  · intro inner hi
    rw [hi] at e2
    have hcr : Spec.Gcm.crypt (Spec.Gcm.aes fun i => (KeySchedule.keyAndNonce x t c.ks.readSeq).1[i.val])
        (KeySchedule.keyAndNonce x t c.ks.readSeq).2.toList (record.take (record.length - 16)) = inner := by
      rw [← unprotect_eq hx] at hi
      exact crypt_of_ad hi
    have hil : inner.length + 16 = record.length := by
      rw [← hcr]
      unfold Spec.Gcm.crypt
      rw [gctr_length, List.length_take]
      omega
    rw [hcr] at hq2
    have e3 := hbody
    rw [X.bind_ok (orFatal_ok (onRx_run e2))] at e3
    refine ⟨by rw [hcr], hil, ?_, ?_, ?_⟩
    · intro hlast hcon
      rw [hlast] at e3
      have e4 : recvBody dbg worldBus secs (toHeader header) .applicationData (w', c) = (.ok .applicationData, (w1, { c with rx := rx1 })) := e3
      obtain ⟨rx2, e5, hq5⟩ := hq2.commit dbg ((RecordHeader.length (toHeader header)).toNat - 17) (by
        show (RecordHeader.length (toHeader header)).toNat - 17 = inner.dropLast.length
        rw [show (RecordHeader.length (toHeader header)).toNat = record.length from hm, List.length_dropLast]
        omega)
      refine ⟨rx2, hq5, ?_⟩
      rw [X.bind_ok e4]
      have e6 : countAppData dbg (toHeader header) .applicationData (w1, { c with rx := rx1 }) = (.ok (), (w1, { c with rx := rx2 })) := by
        unfold countAppData
        rw [if_pos rfl, X.bind_ok (getC_run _)]
        dsimp only
        rw [e5]
        rfl
      rw [X.bind_ok e6]
      unfold recvRecord
      rw [if_neg (by rw [hq.noFragment]; simp), if_neg (by decide)]
      have e7 : recvContent fuel worldBus secs (toHeader header) .applicationData (w1, { c with rx := rx2 })
          = (.ok (some .applicationData), (w1, { c with rx := rx2 })) := by
        unfold recvContent
        dsimp only
        rw [X.bind_ok (getC_run _), if_pos hcon]
        rfl
      rw [X.bind_ok (X.attempt_ok e7)]
      have e8 : countRead .applicationData (w1, { c with rx := rx2 })
          = (.ok (), (w1, { c with rx := rx2, ks := { c.ks with readSeq := c.ks.readSeq + 1 } })) := by
        unfold countRead
        rw [if_pos rfl, X.bind_ok (getC_run _)]
        unfold KeySchedule.incrementReadSeq
        dsimp only
        rw [if_pos hseq]
        rfl
      rw [X.bind_ok e8]
      rfl
    · intro e last hlast hte
      rw [hlast] at e3
      simp only [Option.getD_some, hte] at e3
      rw [X.bind_run, e3]
      exact congrFun (failFatal_bind worldBus .decodeError secs _) (w1, { c with rx := rx1 })
    · intro ct last hlast hte hne
      rw [hlast] at e3
      simp only [Option.getD_some, hte] at e3
      change recvBody dbg worldBus secs (toHeader header) .applicationData (w', c) = (.ok ct, (w1, { c with rx := rx1 })) at e3
      rw [X.bind_ok e3]
      have e6 : countAppData dbg (toHeader header) ct (w1, { c with rx := rx1 }) = (.ok (), (w1, { c with rx := rx1 })) := by
        unfold countAppData
        rw [if_neg hne]
        rfl
      rw [X.bind_ok e6]
      rw [hq.noFragment]

/-! ## `process` -/

theorem store_tx {c : Chip} {k : Nat} (y : UInt8) (h : TxState c k) : TxState { c with mem := c.mem.store (4 * k + 1) 2 y } k := by
  have hs : ∀ a, a ≠ 2 → (c.mem.store (4 * k + 1) 2 y) (4 * k + 1) a = c.mem (4 * k + 1) a := by
    intro a ha
    unfold Mem.store
    rw [if_neg (by omega)]
  have e1 : ({ c with mem := c.mem.store (4 * k + 1) 2 y } : Chip).txSize k = c.txSize k := by
    unfold Chip.txSize; dsimp only; rw [hs _ (by omega)]
  have e2 : ({ c with mem := c.mem.store (4 * k + 1) 2 y } : Chip).txRd k = c.txRd k := by
    unfold Chip.txRd Mem.word; dsimp only; rw [hs _ (by omega), hs _ (by omega)]
  have e3 : ({ c with mem := c.mem.store (4 * k + 1) 2 y } : Chip).txWr k = c.txWr k := by
    unfold Chip.txWr Mem.word; dsimp only; rw [hs _ (by omega), hs _ (by omega)]
  have e4 : ({ c with mem := c.mem.store (4 * k + 1) 2 y } : Chip).txFsr k = c.txFsr k := by
    unfold Chip.txFsr Mem.word; dsimp only; rw [hs _ (by omega), hs _ (by omega)]
  exact ⟨by rw [e1]; exact h.size_dvd, by rw [e1]; exact h.size_lt, by rw [e2, e3]; exact h.idle, by rw [e1, e4]; exact h.fsr_le⟩

theorem store_txFsr (c : Chip) (k : Nat) (y : UInt8) : ({ c with mem := c.mem.store (4 * k + 1) 2 y } : Chip).txFsr k = c.txFsr k := by
  unfold Chip.txFsr Mem.word Mem.store
  dsimp only
  rw [if_neg (by omega), if_neg (by omega)]

theorem Sock.setIr {w0 w : World} {sn : Sn} {base p : Nat} (h : Sock w0 w sn.idx base p) (v : UInt8)
    (hrd : w.chip.rxRd sn.idx = (base + p) % 65536) :
    ∃ w', worldBus.setSnIr sn v w = (.ok (), w') ∧ Sock w0 w' sn.idx base p ∧ w'.chip.rxRd sn.idx = (base + p) % 65536 := by
  refine ⟨_, run_setSnIr sn v w, ?_, ?_⟩
  · have := h.tick
    exact ⟨(store_rxSame _ _ _ _ _ (by omega) (.inr (by omega))).rxOk this.rx, store_tx _ this.tx, this.sent, this.pre, fun e => (this.peace e).setIr _,
      Nat.le_trans this.free (Nat.le_of_eq (store_txFsr _ _ _).symm), this.still, this.sched, by
        rw [← this.simr]
        unfold Mem.store
        dsimp only
        rw [if_neg (by omega)]⟩
  · have : w.tick.chip.rxRd sn.idx = (base + p) % 65536 := by rw [tick_rxRd]; exact hrd
    rw [← this]
    unfold Chip.rxRd Mem.word Mem.store
    dsimp only
    rw [if_neg (by omega), if_neg (by omega)]

theorem ir_quiet (y : UInt8) (h : Spec.Mqtt.quiet y = true) :
    (⟨y⟩ : SocketInterrupt).conRaised = false ∧ (⟨y⟩ : SocketInterrupt).disconRaised = false ∧ (⟨y⟩ : SocketInterrupt).timeoutRaised = false := by
  obtain ⟨h1, h2, h3⟩ := Thm.ir_bits y
  rw [h1, h2, h3]
  revert h
  unfold Spec.Mqtt.quiet
  cases Spec.Mqtt.con y <;> cases Spec.Mqtt.discon y <;> cases Spec.Mqtt.timeout y <;> simp

/-- The states in which records are received. -/
def TState.receives : TState → Bool
  | .reset | .sendDiscon | .waitAlertSendOk | .waitDiscon => false
  | _ => true

/-- A call of `process` on a connected client with a header to receive and no interrupt other than for data. -/
theorem process_recv (dbg : Bool) (fuel : Nat) (rng : Rng x) (secs : UInt32) {w : World} {base p : Nat} (c : Client x)
    (hcon : c.state.receives = true) (hrx : RxAt w.chip c.sn.idx base p) (htx : TxState w.chip c.sn.idx)
    (hir : Spec.Mqtt.quiet (w.tick.chip.mem (4 * c.sn.idx + 1) 2) = true) (hlen : p + 5 ≤ (w.chip.received c.sn.idx).length) :
    ∃ w1, Sock w w1 c.sn.idx base p ∧ w1.chip.rxRd c.sn.idx = (base + p) % 65536 ∧
      process dbg fuel worldBus rng secs (w, c) = (recv dbg fuel worldBus secs >>= fun event =>
        match event with
        | some event => pure event
        | none => afterRecv dbg worldBus secs) (w1, c) := by
  have hs0 : Sock w w c.sn.idx base p := ⟨hrx.rx, htx, rfl, List.prefix_rfl, id, Nat.le_refl _, fun e => ⟨e, rfl⟩, List.suffix_rfl, rfl⟩
  have hs1 := hs0.tick
  have hrd1 : w.tick.chip.rxRd c.sn.idx = (base + p) % 65536 := by rw [tick_rxRd]; exact hrx.rd
  obtain ⟨h1, h2, h3⟩ := ir_quiet _ hir
  -- from the states on
  have tail : ∀ w2 : World, Sock w w2 c.sn.idx base p → w2.chip.rxRd c.sn.idx = (base + p) % 65536 →
      onState dbg fuel worldBus secs (w2, c) = (recv dbg fuel worldBus secs >>= fun event =>
        match event with
        | some event => pure event
        | none => afterRecv dbg worldBus secs) (w2.tick, c) := by
    intro w2 hs2 hrd2
    have h2 : RxAt w2.tick.chip c.sn.idx base p := ⟨hs2.tick.rx, by rw [tick_rxRd]; exact hrd2⟩
    have hle := hs2.tick.pre.length_le
    unfold onState
    rw [X.bind_ok (getC_run (w2, c))]
    have hrr : (match c.state with
      | .reset => orFatal worldBus secs (tlsTcpConnect dbg fuel worldBus secs) >>= fun after => pure (.callAfter after)
      | .sendDiscon => orFatal worldBus secs (onBus (tcpDisconnect dbg worldBus c.sn)) >>= fun _ =>
          modC (Client.setStateWithTimeout .waitDiscon secs) >>= fun _ => pure (.callAfter timeoutSecs)
      | _ => receiveRecords dbg fuel worldBus secs : X TErr (World × Client x) TEvent) = receiveRecords dbg fuel worldBus secs := by
      cases hst : c.state <;> rw [hst] at hcon <;> first | rfl | exact absurd hcon (by decide)
    refine (congrFun hrr (w2, c)).trans ?_
    unfold receiveRecords
    rw [X.bind_ok (getC_run (w2, c))]
    dsimp only
    rw [if_neg (by rcases hst : c.state <;> rw [hst] at hcon <;> first | exact absurd hcon (by decide) | simp), X.bind_ok (orFatal_ok (onBus_ok' (run_snRxRsr c.sn w2) c)),
      if_pos (by rw [GE.ge, UInt16.le_iff_toNat_le, h2.rsr_toNat]; show 5 ≤ _; omega)]
    rfl
  unfold process
  rw [X.bind_ok (getC_run (w, c)), X.bind_ok (X.attempt_ok (onBus_ok' (Mqtt.run_snIr c.sn w) c))]
  dsimp only
  by_cases hany : (⟨w.tick.chip.mem (4 * c.sn.idx + 1) 2⟩ : SocketInterrupt).anyRaised = true
  · rw [if_pos hany]
    unfold onInterrupts
    obtain ⟨w2, e2, hs2, hrd2⟩ := hs1.setIr (⟨w.tick.chip.mem (4 * c.sn.idx + 1) 2⟩ : SocketInterrupt).raw hrd1
    rw [X.bind_ok (getC_run (w.tick, c)), X.bind_ok (orFatal_ok (onBus_ok' e2 c)), if_neg (by rw [h1]; decide)]
    unfold onInterrupt
    rw [X.bind_ok (getC_run (w2, c)), if_neg (by rw [h2]; decide), if_neg (by rw [h3]; decide), if_neg (by rcases hst : c.state <;> rw [hst] at hcon <;> first | exact absurd hcon (by decide) | simp)]
    exact ⟨w2.tick, hs2.tick, by rw [tick_rxRd]; exact hrd2, tail w2 hs2 hrd2⟩
  · rw [if_neg hany]
    exact ⟨w.tick.tick, hs1.tick, by rw [tick_rxRd]; exact hrd1, tail w.tick hs1 hrd1⟩

end Verif.Tls
