import Verif.Proof.TlsReceive
/-!
# Receiving records does not undo what the socket received
-/
namespace Verif.Tls
open Verif Hl
open _root_.Verif.Spec (World worldBus TxState RxState Queue Chip Mem)

/-- Writes that are not an `OPEN` command. -/
theorem writeByte_keeps (c : Chip) (blk a k : Nat) (y : UInt8) (h : blk % 4 = 1 → a = 1 → y ≠ 1) :
    (c.writeByte blk a y).received k = c.received k := by
  unfold Chip.writeByte
  split
  · rename_i hb
    split
    · rename_i ha
      have hy := h hb ha
      unfold Chip.command
      rw [if_neg hy]
      repeat' split
      all_goals rfl
    · split
      · rfl
      · split <;> rfl
  · rfl

theorem writeBytes_keeps (xs : Bytes) : ∀ (c : Chip) (blk a k : Nat), (blk % 4 = 1 → 1 < a ∧ a + xs.length ≤ 65536) →
    (c.writeBytes blk a xs).received k = c.received k := by
  induction xs with
  | nil => intro c blk a k _; rfl
  | cons y ys ih =>
    intro c blk a k h
    rw [List.length_cons] at h
    unfold Chip.writeBytes
    rw [ih _ _ _ _ (fun hb => by have := h hb; omega), writeByte_keeps _ _ _ _ _ (fun hb ha => by have := h hb; omega)]

/-- What the socket received is still received, and nothing more if nothing arrives. -/
structure Onward (k : Nat) (w w' : World) : Prop where
  pre : w.chip.received k <+: w'.chip.received k
  still : Still k w → Still k w' ∧ w'.chip.received k = w.chip.received k

theorem Onward.refl (k : Nat) (w : World) : Onward k w w := ⟨List.prefix_rfl, fun h => ⟨h, rfl⟩⟩
theorem Onward.trans {k : Nat} {u v w : World} (h1 : Onward k u v) (h2 : Onward k v w) : Onward k u w :=
  ⟨h1.pre.trans h2.pre, fun h => ⟨(h2.still (h1.still h).1).1, (h2.still (h1.still h).1).2.trans (h1.still h).2⟩⟩
theorem Onward.tick (k : Nat) (w : World) : Onward k w w.tick := ⟨tick_received_prefix w k, fun h => h.tick⟩
theorem Onward.chip {k : Nat} {w : World} {c : Chip} (h : c.received k = w.chip.received k) : Onward k w { w with chip := c } :=
  ⟨by show _ <+: c.received k; rw [h], fun hs => ⟨hs, h⟩⟩

/-- What the socket received is still received afterwards. -/
def GrowsM {α : Type} (k : Nat) (m : M World α) : Prop := ∀ w, Onward k w (m w).2

namespace GrowsM
variable {α β : Type} {k : Nat}

theorem pure (a : α) : GrowsM k (Pure.pure a : M World α) := fun _ => Onward.refl _ _
theorem throw (e : Err) : GrowsM k (M.throw e : M World α) := fun _ => Onward.refl _ _
theorem bind {m : M World α} {f : α → M World β} (hm : GrowsM k m) (hf : ∀ a, GrowsM k (f a)) : GrowsM k (m >>= f) := by
  intro w
  have := hm w
  rw [M.bind_run]
  rcases e : m w with ⟨_ | a, w'⟩
  · rw [e] at this; exact this
  · rw [e] at this; exact this.trans (hf a w')
theorem ite {c : Prop} [Decidable c] {m m' : M World α} (h1 : GrowsM k m) (h2 : GrowsM k m') : GrowsM k (if c then m else m') := by
  split <;> assumption
theorem read (a : UInt16) (blk : UInt8) (n : Nat) : GrowsM k (worldBus.read a blk n) := fun w => .tick k w
theorem write (a : UInt16) (blk : UInt8) (bs : Bytes) (h : blk.toNat % 4 = 1 → 1 < a.toNat ∧ a.toNat + bs.length ≤ 65536) :
    GrowsM k (worldBus.write a blk bs) := by
  intro w
  exact (Onward.tick k w).trans (.chip (writeBytes_keeps _ _ _ _ _ h))
theorem setSnCr (sn : Sn) (v : SocketCommand) (h : v ≠ .open) : GrowsM k (worldBus.setSnCr sn v) := by
  intro w
  exact (Onward.tick k w).trans (.chip (c := w.tick.chip.writeByte sn.block.toNat (1 % 65536) v.code)
    (writeByte_keeps _ _ _ _ _ (fun _ _ => by cases v <;> first | exact absurd rfl h | decide)))
theorem setSnRxRd (sn : Sn) (v : UInt16) : GrowsM k (worldBus.setSnRxRd sn v) := write _ _ _ (fun _ => ⟨by decide, show 0x28 + 2 ≤ 65536 by decide⟩)
theorem setSnTxWr (sn : Sn) (v : UInt16) : GrowsM k (worldBus.setSnTxWr sn v) := write _ _ _ (fun _ => ⟨by decide, show 0x24 + 2 ≤ 65536 by decide⟩)
theorem setSnTxBuf (sn : Sn) (p : UInt16) (v : Bytes) : GrowsM k (worldBus.setSnTxBuf sn p v) :=
  write _ _ _ (fun h => absurd h (by cases sn <;> decide))

macro "grow_tac" : tactic => `(tactic|
  repeat (first
    | exact GrowsM.pure _
    | exact GrowsM.throw _
    | exact GrowsM.read _ _ _
    | (refine GrowsM.bind ?_ ?_)
    | (refine GrowsM.ite ?_ ?_)
    | intro _))

theorem snRxRsr (sn : Sn) : GrowsM k (worldBus.snRxRsr sn) := by unfold Bus.snRxRsr; grow_tac
theorem snRxRd (sn : Sn) : GrowsM k (worldBus.snRxRd sn) := by unfold Bus.snRxRd; grow_tac
theorem snRxBuf (sn : Sn) (p n) : GrowsM k (worldBus.snRxBuf sn p n) := by unfold Bus.snRxBuf; grow_tac
theorem debugAssert (dbg : Bool) (sn : Sn) : GrowsM k (Hl.debugAssert dbg (notUdpInitMacraw worldBus sn)) := by
  unfold Hl.debugAssert notUdpInitMacraw Bus.snSr; grow_tac
theorem tcpReader (dbg : Bool) (sn : Sn) : GrowsM k (Hl.tcpReader dbg worldBus sn) :=
  (debugAssert _ _).bind fun _ => (snRxRsr _).bind fun _ => ite (throw _) ((snRxRd _).bind fun _ => pure _)
theorem readExact (r : Ptrs) (n : Nat) : GrowsM k (tcpReaderReadExact worldBus r n) :=
  ite (throw _) ((snRxBuf _ _ _).bind fun _ => pure _)
theorem done (r : Ptrs) : GrowsM k (tcpReaderDone worldBus r) := (setSnRxRd _ _).bind fun _ => setSnCr _ _ (by decide)
theorem socketWriter (sn : Sn) : GrowsM k (Hl.socketWriter worldBus sn) := by unfold Hl.socketWriter Bus.snTxPtrs; grow_tac
theorem writeAll (r : Ptrs) (bs : Bytes) : GrowsM k (writerWriteAll worldBus r bs) :=
  ite (throw _) ((setSnTxBuf _ _ _).bind fun _ => pure _)
theorem send (r : Ptrs) : GrowsM k (writerSend worldBus r) := (setSnTxWr _ _).bind fun _ => setSnCr _ _ (by decide)
theorem tcpDisconnect (dbg : Bool) (sn : Sn) : GrowsM k (Hl.tcpDisconnect dbg worldBus sn) :=
  (debugAssert _ _).bind fun _ => setSnCr _ _ (by decide)

end GrowsM

/-- The same for computations of the TLS client. -/
def Grows {ε τ α : Type} (k : Nat) (m : X ε (World × τ) α) : Prop := ∀ s, Onward k s.1 (m s).2.1

/-- The same for computations on the device. -/
def GrowsX {ε α : Type} (k : Nat) (m : X ε World α) : Prop := ∀ w, Onward k w (m w).2

namespace GrowsX
variable {ε ε' α β : Type} {k : Nat}

theorem pure (a : α) : GrowsX k (Pure.pure a : X ε World α) := fun _ => Onward.refl _ _
theorem ofExcept (e : Except (Fail ε) α) : GrowsX k (X.ofExcept e : X ε World α) := fun _ => by cases e <;> exact Onward.refl _ _
theorem throw (e : ε) : GrowsX k (X.throw e : X ε World α) := fun _ => Onward.refl _ _
theorem ofCipher (e : Except Err α) : GrowsX k (Tls.ofCipher e : X ε World α) := fun _ => by cases e <;> exact Onward.refl _ _
theorem unwrapKey (e : Option α) : GrowsX k (Tls.unwrapKey e : X ε World α) := fun _ => by cases e <;> exact Onward.refl _ _
theorem bind {m : X ε World α} {f : α → X ε World β} (hm : GrowsX k m) (hf : ∀ a, GrowsX k (f a)) : GrowsX k (m >>= f) := by
  intro w
  have := hm w
  rw [X.bind_run]
  rcases e : m w with ⟨_ | a, w'⟩
  · rw [e] at this; exact this
  · rw [e] at this; exact this.trans (hf a w')
theorem ite {c : Prop} [Decidable c] {m m' : X ε World α} (h1 : GrowsX k m) (h2 : GrowsX k m') : GrowsX k (if c then m else m') := by
  split <;> assumption
theorem ofM {m : M World α} (h : GrowsM k m) : GrowsX k (X.ofM m) := by
  intro w
  have := h w
  unfold X.ofM
  rcases e : m w with ⟨_ | a, w'⟩ <;> rw [e] at this <;> exact this
theorem mapErr {f : ε → ε'} {m : X ε World α} (h : GrowsX k m) : GrowsX k (m.mapErr f) := by
  intro w
  have := h w
  unfold X.mapErr
  rcases e : m w with ⟨_ | a, w'⟩ <;> rw [e] at this <;> exact this
theorem internal {m : M World α} (h : GrowsM k m) : GrowsX k (Tls.internal m) := (ofM h).mapErr

theorem writeChunks (n : Nat) : ∀ g r data, GrowsX k (Tls.writeChunks worldBus n g r data) := by
  induction n with
  | zero => intro g r data; exact pure _
  | succ n ih => intro g r data; exact (ofCipher _).bind fun _ => (ofM (.writeAll _ _)).bind fun _ => ih _ _ _

theorem sendEncryptedRecord (sn : Sn) (kn) (ct : ContentType) (data : Bytes) : GrowsX k (Tls.sendEncryptedRecord worldBus sn kn ct data) := by
  unfold Tls.sendEncryptedRecord
  exact ite (ofExcept _) ((ofM (.socketWriter _)).bind fun _ => (ofM (.writeAll _ _)).bind fun _ => (unwrapKey _).bind fun _ =>
    (writeChunks _ _ _ _).bind fun _ => (ofCipher _).bind fun _ => (ofM (.writeAll _ _)).bind fun _ => (ofM (.writeAll _ _)).bind fun _ =>
    ofM (.send _))

theorem checkTag (sn : Sn) (ct g rd) : GrowsX k (Tls.checkTag worldBus sn ct g rd) :=
  (internal (.snRxBuf _ _ _)).bind fun _ => (internal (.setSnRxRd _ _)).bind fun _ => (internal (.setSnRxRd _ _)).bind fun _ =>
    (internal (.setSnCr _ _ (by decide))).bind fun _ => ite (pure _) (throw _)

end GrowsX

namespace Grows
variable {ε ε' τ α β : Type} {k : Nat} {x : Crypto}

theorem pure (a : α) : Grows k (Pure.pure a : X ε (World × τ) α) := fun _ => Onward.refl _ _
theorem ofExcept (e : Except (Fail ε) α) : Grows k (X.ofExcept e : X ε (World × τ) α) := fun _ => by cases e <;> exact Onward.refl _ _
theorem throw (e : ε) : Grows k (X.throw e : X ε (World × τ) α) := fun _ => Onward.refl _ _
theorem ofCipher (e : Except Err α) : Grows k (Tls.ofCipher e : X ε (World × τ) α) := fun _ => by cases e <;> exact Onward.refl _ _
theorem unwrapKey (e : Option α) : Grows k (Tls.unwrapKey e : X ε (World × τ) α) := fun _ => by cases e <;> exact Onward.refl _ _
theorem get : Grows k (X.get : X ε (World × τ) _) := fun _ => Onward.refl _ _
theorem getC : Grows k (Tls.getC : X ε (World × Client x) _) := fun _ => Onward.refl _ _
theorem modC (f) : Grows k (Tls.modC f : X ε (World × Client x) _) := fun _ => Onward.refl _ _
theorem bind {m : X ε (World × τ) α} {f : α → X ε (World × τ) β} (hm : Grows k m) (hf : ∀ a, Grows k (f a)) : Grows k (m >>= f) := by
  intro s
  have := hm s
  rw [X.bind_run]
  rcases e : m s with ⟨_ | a, s'⟩
  · rw [e] at this; exact this
  · rw [e] at this; exact this.trans (hf a s')
theorem ite {c : Prop} [Decidable c] {m m' : X ε (World × τ) α} (h1 : Grows k m) (h2 : Grows k m') : Grows k (if c then m else m') := by
  split <;> assumption
theorem mapErr {f : ε → ε'} {m : X ε (World × τ) α} (h : Grows k m) : Grows k (m.mapErr f) := by
  intro w
  have := h w
  unfold X.mapErr
  rcases e : m w with ⟨_ | a, w'⟩ <;> rw [e] at this <;> exact this
theorem attempt {m : X ε (World × τ) α} (h : Grows k m) : Grows k (m.attempt : X ε' _ _) := by
  intro w
  have := h w
  unfold X.attempt
  rcases e : m w with ⟨(_ | _ | _) | a, w'⟩ <;> rw [e] at this <;> exact this
theorem onFst {m : X ε World α} (h : GrowsX k m) : Grows k (m.onFst : X ε (World × τ) α) := fun s => h s.1
theorem onBus {m : M World α} (h : GrowsM k m) : Grows k (Tls.onBus m : X _ (World × Client x) α) := onFst (.internal h)
theorem onHl {m : M World α} (h : GrowsM k m) : Grows k (Tls.onHl m : X _ (World × Client x) α) := onFst (.mapErr (.ofM h))
theorem onRx {m : X ε (World × Buffer) α} (h : Grows k m) : Grows k (Tls.onRx m : X ε (World × Client x) α) := fun s => h (s.1, s.2.rx)

theorem sendRecord (ct : ContentType) (data : Bytes) : Grows k (Tls.sendRecord worldBus ct data : X _ (World × Client x) _) :=
  getC.bind fun _ => onFst (.sendEncryptedRecord _ _ _ _)

theorem trySendAlert (l d) : Grows k (Tls.trySendAlert worldBus l d : X _ (World × Client x) _) :=
  getC.bind fun _ => ite (sendRecord _ _).mapErr ((onBus (.socketWriter _)).bind fun _ => (onHl (.writeAll _ _)).bind fun _ => onBus (.send _))

theorem sendAlert (l d secs) : Grows k (Tls.sendAlert worldBus l d secs : X ε (World × Client x) _) :=
  (trySendAlert l d).attempt.bind fun r => (modC _).bind fun _ => by cases r <;> exact modC _

theorem failFatal (d secs) : Grows k (Tls.failFatal worldBus d secs : X _ (World × Client x) α) :=
  (sendAlert _ _ _).bind fun _ => throw _

theorem orFatal (secs) {m : X AlertDescription (World × Client x) α} (h : Grows k m) : Grows k (Tls.orFatal worldBus secs m) :=
  h.attempt.bind fun r => by
    cases r with
    | ok a => exact pure a
    | error e => exact failFatal e secs

theorem popTail : Grows k (popTailRx : X ε (World × Buffer) _) := by
  intro s
  unfold popTailRx
  split <;> exact Onward.refl _ _

theorem extend (dbg src) : Grows k (extendRx dbg src : X _ (World × Buffer) _) :=
  get.bind fun _ => (ofExcept _).bind fun _ => fun _ => Onward.refl _ _

theorem recvHeader (dbg : Bool) : Grows k (Tls.recvHeader dbg worldBus : X _ (World × Client x) _) :=
  getC.bind fun _ => (onHl (.tcpReader _ _)).bind fun _ => (onHl (.readExact _ _)).bind fun _ => (ofExcept _).bind fun _ =>
    ite (throw _) (ite (pure _) ((onBus (.done _)).bind fun _ => pure _))

theorem recvBodyLoop (dbg : Bool) (n : Nat) : ∀ r m, Grows k (Tls.recvBodyLoop dbg worldBus n r m : X _ (World × Client x) _) := by
  induction n with
  | zero => intro r m; exact ofExcept _
  | succ n ih =>
    intro r m
    exact ite (pure _) ((onHl (.readExact _ _)).bind fun _ => (onRx (extend _ _)).bind fun _ => ih _ _)

theorem recvUnencryptedBody (dbg : Bool) (h) : Grows k (Tls.recvUnencryptedBody dbg worldBus h : X _ (World × Client x) _) :=
  getC.bind fun _ => (onHl (.tcpReader _ _)).bind fun _ => (recvBodyLoop _ _ _ _).bind fun _ => onBus (.done _)

theorem decryptLoop (dbg : Bool) (sn : Sn) (n : Nat) : ∀ g rd m, Grows k (Tls.decryptLoop dbg worldBus sn n g rd m) := by
  induction n with
  | zero => intro g rd m; exact ofExcept _
  | succ n ih =>
    intro g rd m
    refine (onFst (.internal (.snRxBuf _ _ _))).bind fun _ => (ofCipher _).bind fun _ => (extend _ _).bind fun _ =>
      ite (Grows.bind ?_ fun _ => pure _) (ih _ _ _)
    exact popTail.bind fun b => by cases b <;> exact ofExcept _

theorem decryptRecord (dbg : Bool) (sn : Sn) (key nonce h) : Grows k (decryptRecordInplace dbg worldBus sn key nonce h) :=
  (onFst (.internal (.snRxRsr _))).bind fun _ => ite (throw _) ((onFst (.internal (.snRxRd _))).bind fun _ =>
    ite (throw _) ((decryptLoop _ _ _ _ _ _).bind fun _ => onFst (.checkTag _ _ _ _)))

theorem recvEncryptedBody (dbg : Bool) (secs h) : Grows k (Tls.recvEncryptedBody dbg worldBus secs h : X _ (World × Client x) _) := by
  refine getC.bind fun c => ?_
  split
  · exact failFatal _ _
  · refine (orFatal _ (onRx (decryptRecord _ _ _ _ _))).bind fun ct => ?_
    cases ct <;> first | exact pure _ | exact failFatal _ _

theorem recvBody (dbg : Bool) (secs h o) : Grows k (Tls.recvBody dbg worldBus secs h o : X _ (World × Client x) _) :=
  ite (recvEncryptedBody _ _ _) ((orFatal _ (recvUnencryptedBody _ _)).bind fun _ => pure _)

theorem failAlert (dbg : Bool) (h) : Grows k (Tls.failAlert dbg worldBus h : X _ (World × Client x) α) := by
  refine (modC _).bind fun _ => ite ((modC _).bind fun _ => getC.bind fun _ => (onBus (.tcpDisconnect _ _)).attempt.bind fun _ => throw _)
    ((onRx popTail).bind fun b => ?_)
  cases b with
  | none => exact (modC _).bind fun _ => throw _
  | some b =>
    dsimp only
    split
    · exact throw _
    · refine (onRx popTail).bind fun b => (modC _).bind fun _ => ?_
      cases b <;> exact throw _

theorem popHandshake : Grows k (Tls.popHandshake : X _ (World × Client x) _) := by
  refine getC.bind fun _ => (ofExcept _).bind fun r => ?_
  cases r with
  | none => exact pure _
  | some m => exact (modC _).bind fun _ => pure _

theorem onHandshake (fuel secs hash h r) : Grows k (Tls.onHandshake fuel secs hash h r : X _ (World × Client x) _) := by
  unfold Tls.onHandshake
  split
  any_goals exact throw _
  · exact getC.bind fun _ => ite (throw _) ((ofExcept _).bind fun _ => (unwrapKey _).bind fun _ => modC _)
  · exact getC.bind fun _ => ite (throw _) (pure _)
  · exact getC.bind fun _ => ite (throw _) ((ofExcept _).bind fun _ => modC _)
  · exact getC.bind fun _ => ite (throw _) (ite (throw _) ((ofExcept _).bind fun _ => (ofExcept _).bind fun _ => modC _))
  · refine getC.bind fun _ => ite (throw _) (ite (throw _) ((ofExcept _).bind fun _ => ?_))
    dsimp only
    split
    · exact pure _
    · exact modC _
    · exact throw _

theorem recvHandshake (secs) (n : Nat) : Grows k (Tls.recvHandshake secs n : X _ (World × Client x) _) := by
  induction n with
  | zero => exact ofExcept _
  | succ n ih =>
    refine popHandshake.bind fun m => ?_
    cases m with
    | none => exact pure _
    | some m => exact getC.bind fun _ => (onHandshake _ _ _ _ _).bind fun _ => (modC _).bind fun _ => ih

theorem recvContent (fuel secs h ct) : Grows k (Tls.recvContent fuel worldBus secs h ct : X _ (World × Client x) _) := by
  unfold Tls.recvContent
  split
  · refine (orFatal _ (ite (throw _) ((onRx popTail).bind fun b => ?_))).bind fun _ => pure _
    cases b <;> first | exact throw _ | exact ite (throw _) (pure _)
  · exact (orFatal _ (recvHandshake _ _)).bind fun _ => pure _
  · exact getC.bind fun _ => ite (pure _) (failFatal _ _)

theorem recvRecord (dbg fuel secs h o ct f) : Grows k (Tls.recvRecord dbg fuel worldBus secs h o ct f : X _ (World × Client x) _) :=
  ite (failFatal _ _) (ite (failAlert _ _) ((recvContent _ _ _ _).attempt.bind fun _ =>
    (ite (getC.bind fun _ => (ofCipher _).bind fun _ => modC _) (pure _)).bind fun _ => ofExcept _))

theorem recv (dbg fuel secs) : Grows k (Tls.recv dbg fuel worldBus secs : X _ (World × Client x) _) := by
  refine (orFatal _ (recvHeader _)).bind fun h => ?_
  cases h with
  | none => exact pure _
  | some h =>
    refine getC.bind fun _ => ?_
    split
    · exact ofExcept _
    · exact (recvBody _ _ _ _).bind fun _ => (ite (getC.bind fun _ => (ofCipher _).bind fun _ => modC _) (pure _)).bind fun _ =>
        recvRecord _ _ _ _ _ _ _

theorem checkTimeout (dbg secs) : Grows k (Tls.checkTimeout dbg secs : X _ (World × Client x) _) := by
  refine getC.bind fun _ => (ofCipher _).bind fun e => ?_
  cases e with
  | none => exact pure _
  | some e => exact ite ((modC _).bind fun _ => throw _) (pure _)

theorem afterRecv (dbg secs) : Grows k (Tls.afterRecv dbg worldBus secs : X _ (World × Client x) _) :=
  getC.bind fun _ => ite ((orFatal _ (getC.bind fun _ => (unwrapKey _).bind fun _ => (sendRecord _ _).mapErr.bind fun _ => modC _)).bind fun _ => pure _)
    (checkTimeout _ _)

end Grows

end Verif.Tls
