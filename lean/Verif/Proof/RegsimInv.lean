import Verif.Proof.Regsim
/-!
# The register simulator: what holds in every history
-/
namespace Verif.Sim

/-- What every access keeps. -/
def Keeps (P : Sim → Prop) {α : Type} (m : M Sim α) : Prop := ∀ s, P s → P (m s).2

theorem Keeps.bind {P : Sim → Prop} {α β : Type} {m : M Sim α} {f : α → M Sim β} (hm : Keeps P m) (hf : ∀ a, Keeps P (f a)) :
    Keeps P (m >>= f) := by
  intro s hs
  rw [M.bind_run]
  have := hm s hs
  rcases h : m s with ⟨_ | a, s'⟩
  · rw [h] at this; exact this
  · rw [h] at this; exact hf a s' this

theorem Keeps.pure {P : Sim → Prop} {α : Type} (a : α) : Keeps P (Pure.pure a : M Sim α) := fun _ h => h
theorem Keeps.throw {P : Sim → Prop} {α : Type} (e : Err) : Keeps P (M.throw e : M Sim α) := fun _ h => h

/-- The buffers have the sizes in the registers, the free size is that of an empty 2 KiB buffer, and no SENDOK interrupt is raised. -/
structure SocketOk (k : Socket) : Prop where
  tx : k.txBuf.length = k.regs.txbufSize.sizeInBytes
  rx : k.rxBuf.length = k.regs.rxbufSize.sizeInBytes
  fsr : k.regs.txFsr = 0x0800
  ir : k.regs.ir.raw.toNat < 16

def Inv (s : Sim) : Prop := ∀ sn, SocketOk (s.sn sn)

theorem SocketOk.default : SocketOk Socket.default where
  tx := List.length_replicate
  rx := List.length_replicate
  fsr := rfl
  ir := by decide

theorem keeps_modSocket {sn : Sn} {f : Socket → Socket} (h : ∀ k, SocketOk k → SocketOk (f k)) : Keeps Inv (modSocket sn f) := by
  intro s hs j
  rw [modSocket_run]
  by_cases hj : j = sn
  · subst hj; rw [setSocket_same]; exact h _ (hs j)
  · rw [setSocket_other _ _ _ _ hj]; exact hs j

theorem keeps_modRegs {sn : Sn} {f : SocketRegs → SocketRegs} (h1 : ∀ r, (f r).txbufSize = r.txbufSize) (h2 : ∀ r, (f r).rxbufSize = r.rxbufSize)
    (h3 : ∀ r, (f r).txFsr = r.txFsr) (h4 : ∀ r, (f r).ir = r.ir) : Keeps Inv (modRegs sn f) :=
  keeps_modSocket fun k hk => ⟨by rw [h1]; exact hk.tx, by rw [h2]; exact hk.rx, by rw [h3]; exact hk.fsr, by rw [h4]; exact hk.ir⟩

theorem keeps_getSocket {sn : Sn} {α : Type} {f : Socket → M Sim α} (h : ∀ k, SocketOk k → Keeps Inv (f k)) : Keeps Inv (getSocket sn >>= f) := by
  intro s hs
  rw [M.bind_ok (getSocket_run sn s)]
  exact h _ (hs sn) s hs

theorem keeps_ask : Keeps Inv ask := by
  intro s hs
  unfold ask
  split <;> exact hs

theorem keeps_askUnit : Keeps Inv askUnit := Keeps.bind keeps_ask fun a => by cases a <;> first | exact Keeps.pure _ | exact Keeps.throw _
theorem keeps_askOk : Keeps Inv askOk := Keeps.bind keeps_ask fun a => by cases a <;> exact Keeps.pure _

theorem keeps_sr (sn : Sn) (st : SocketStatus) : Keeps Inv (simSetSnSr sn st) :=
  keeps_modRegs (fun _ => rfl) (fun _ => rfl) (fun _ => rfl) (fun _ => rfl)

theorem keeps_modify {f : Sim → Sim} (h : ∀ s, (f s).sn = s.sn) : Keeps Inv (M.modify f) := by
  intro s hs
  show Inv (f s)
  intro j
  rw [h]
  exact hs j

theorem or_lt16 (x y : UInt8) (hx : x.toNat < 16) (hy : y.toNat < 16) : (x ||| y).toNat < 16 := by
  rw [UInt8.toNat_or]
  exact Nat.or_lt_two_pow (n := 4) hx hy

theorem keeps_raise (sn : Sn) (int : UInt8) (hi : int.toNat < 16) : Keeps Inv (raiseSnIr sn int) :=
  Keeps.bind (keeps_modify fun _ => rfl) fun _ => keeps_modSocket fun _ hk => ⟨hk.tx, hk.rx, hk.fsr, or_lt16 _ _ hk.ir hi⟩

theorem keeps_inner (sn : Sn) (t : Option SocketType) : Keeps Inv (modSocket sn fun k => { k with inner := t }) :=
  keeps_modSocket fun _ hk => ⟨hk.tx, hk.rx, hk.fsr, hk.ir⟩

theorem keeps_open (sn : Sn) : Keeps Inv (socketCmdOpen sn) := by
  unfold socketCmdOpen
  refine Keeps.bind (keeps_modRegs (fun _ => rfl) (fun _ => rfl) (fun _ => rfl) (fun _ => rfl)) fun _ => keeps_getSocket fun k _ => ?_
  rcases (⟨k.regs.mr⟩ : SocketMode).protocol with _ | p
  · exact Keeps.pure _
  · cases p
    · exact Keeps.pure _
    · exact Keeps.bind (keeps_inner _ _) fun _ => keeps_sr _ _
    · refine Keeps.bind keeps_askOk fun b => ?_
      cases b
      · exact keeps_sr _ _
      · exact Keeps.bind keeps_askUnit fun _ => Keeps.bind keeps_askUnit fun _ => Keeps.bind (keeps_inner _ _) fun _ => keeps_sr _ _
    · show Keeps Inv (if sn = .sn0 then M.throw .panic else pure ())
      split
      · exact Keeps.throw _
      · exact Keeps.pure _

theorem keeps_connect (sn : Sn) : Keeps Inv (socketCmdConnect sn) := by
  unfold socketCmdConnect
  refine keeps_getSocket fun k _ => ?_
  split
  · exact Keeps.throw _
  · refine Keeps.bind keeps_askOk fun b => ?_
    cases b
    · exact Keeps.bind (keeps_raise _ _ (by decide)) fun _ => keeps_sr _ _
    · exact Keeps.bind keeps_askUnit fun _ => Keeps.bind keeps_askUnit fun _ => Keeps.bind (keeps_inner _ _) fun _ =>
        Keeps.bind (keeps_raise _ _ (by decide)) fun _ => keeps_sr _ _

theorem keeps_listen (sn : Sn) : Keeps Inv (socketCmdListen sn) := by
  unfold socketCmdListen
  refine keeps_getSocket fun k _ => ?_
  split
  · exact Keeps.throw _
  · refine Keeps.bind keeps_askOk fun b => ?_
    cases b
    · exact Keeps.bind (keeps_sr _ _) fun _ => keeps_raise _ _ (by decide)
    · exact Keeps.bind keeps_askUnit fun _ => Keeps.bind keeps_askUnit fun _ => Keeps.bind (keeps_inner _ _) fun _ => keeps_sr _ _

theorem keeps_close (sn : Sn) : Keeps Inv (socketCmdClose sn) := Keeps.bind (keeps_inner _ _) fun _ => keeps_sr _ _

theorem keeps_send (dbg : Bool) (sn : Sn) : Keeps Inv (socketCmdSend dbg sn) := by
  unfold socketCmdSend
  refine keeps_getSocket fun k _ => ?_
  split
  · exact Keeps.pure _
  · rcases sendBytes dbg k with _ | bytes
    · exact Keeps.throw _
    · refine Keeps.bind ?_ fun _ => keeps_modRegs (fun _ => rfl) (fun _ => rfl) (fun _ => rfl) (fun _ => rfl)
      have hrec : Keeps Inv (M.modify fun s : Sim => { s with out := s.out ++ [⟨sn, k.regs.dest, bytes⟩] }) := keeps_modify fun _ => rfl
      rcases k.inner with _ | t
      · exact Keeps.throw _
      · cases t
        · exact Keeps.bind keeps_askUnit fun _ => hrec
        · show Keeps Inv (if k.client then _ else _)
          split
          · exact Keeps.bind keeps_askUnit fun _ => Keeps.bind keeps_askUnit fun _ => hrec
          · exact Keeps.pure _
        · exact Keeps.bind keeps_askUnit fun _ => Keeps.bind keeps_askUnit fun _ => hrec

theorem keeps_recv (dbg : Bool) (sn : Sn) : Keeps Inv (socketCmdRecv dbg sn) := by
  unfold socketCmdRecv
  refine keeps_getSocket fun k _ => ?_
  split
  · exact keeps_modRegs (fun _ => rfl) (fun _ => rfl) (fun _ => rfl) (fun _ => rfl)
  · dsimp only
    split
    · exact Keeps.throw _
    · exact keeps_modRegs (fun _ => rfl) (fun _ => rfl) (fun _ => rfl) (fun _ => rfl)

theorem rxPush_ok (data : Bytes) (k k' : Socket) (h : k.rxPush data = some k') (hk : SocketOk k) : SocketOk k' := by
  induction data generalizing k with
  | nil => injection h with h; exact h ▸ hk
  | cons b rest ih =>
    unfold Socket.rxPush at h
    split at h
    · cases h
    · split at h
      · injection h with h; exact h ▸ hk
      · split at h
        · cases h
        · exact ih _ h ⟨hk.tx, by rw [List.length_set]; exact hk.rx, hk.fsr, hk.ir⟩

theorem keeps_rxBuf (sn : Sn) (data : Bytes) : Keeps Inv (simSetSnRxBuf sn data) := by
  unfold simSetSnRxBuf
  refine keeps_getSocket fun k hk => ?_
  rcases h : k.rxPush data with _ | k'
  · exact Keeps.throw _
  · exact keeps_modSocket fun _ _ => rxPush_ok data k k' h hk

theorem keeps_readStream (sn : Sn) (n : Nat) : Keeps Inv (readStream sn n) := by
  unfold readStream
  refine Keeps.bind keeps_ask fun a => ?_
  cases a with
  | done => exact Keeps.pure _
  | wouldBlock => exact Keeps.pure _
  | fail k => exact Keeps.throw _
  | data o b =>
    show Keeps Inv (if _ then _ else _)
    split
    · exact Keeps.pure _
    · exact Keeps.bind (keeps_rxBuf _ _) fun _ => keeps_raise _ _ (by decide)

theorem keeps_check (sn : Sn) : Keeps Inv (checkSocket sn) := by
  unfold checkSocket
  refine keeps_getSocket fun k _ => ?_
  rcases k.inner with _ | t
  · exact Keeps.pure _
  · cases t
    · refine Keeps.bind keeps_ask fun a => ?_
      cases a with
      | done => exact Keeps.pure _
      | wouldBlock => exact Keeps.pure _
      | fail k => exact Keeps.throw _
      | data o b =>
        exact Keeps.bind (keeps_rxBuf _ _) fun _ => Keeps.bind (keeps_rxBuf _ _) fun _ => Keeps.bind (keeps_rxBuf _ _) fun _ =>
          Keeps.bind (keeps_rxBuf _ _) fun _ => keeps_raise _ _ (by decide)
    · show Keeps Inv (if k.client then _ else _)
      split
      · exact keeps_readStream _ _
      · have hac : Keeps Inv (askUnit >>= fun _ => modSocket sn (fun k => { k with client := true }) >>= fun _ =>
            raiseSnIr sn SocketInterrupt.conMask >>= fun _ => simSetSnSr sn .established) :=
          Keeps.bind keeps_askUnit fun _ => Keeps.bind (keeps_modSocket fun _ hk => ⟨hk.tx, hk.rx, hk.fsr, hk.ir⟩) fun _ =>
            Keeps.bind (keeps_raise _ _ (by decide)) fun _ => keeps_sr _ _
        refine Keeps.bind keeps_ask fun a => ?_
        cases a with
        | done => exact hac
        | wouldBlock => exact Keeps.pure _
        | fail k => exact Keeps.throw _
        | data o b => exact hac
    · exact keeps_readStream _ _

theorem keeps_regRd (addr : UInt16) (sn : Sn) : Keeps Inv (socketRegRd addr sn) := by
  unfold socketRegRd
  refine keeps_getSocket fun k _ => Keeps.bind ?_ fun _ => Keeps.pure _
  split
  · exact keeps_check sn
  · exact Keeps.pure _

theorem keeps_readEach {f : UInt16 → M Sim UInt8} (hf : ∀ a, Keeps Inv (f a)) (n : Nat) (a : UInt16) : Keeps Inv (readEach f n a) := by
  induction n generalizing a with
  | zero => exact Keeps.pure _
  | succ n ih => exact Keeps.bind (hf a) fun _ => Keeps.bind (ih _) fun _ => Keeps.pure _

theorem keeps_writeEach {f : UInt16 → UInt8 → M Sim Unit} (hf : ∀ a b, Keeps Inv (f a b)) (xs : Bytes) (a : UInt16) : Keeps Inv (writeEach f a xs) := by
  induction xs generalizing a with
  | nil => exact Keeps.pure _
  | cons x xs ih => exact Keeps.bind (hf a x) fun _ => ih _

theorem keeps_bufRd (b : Bytes) (a : UInt16) : Keeps Inv (bufRd b a) := by
  unfold bufRd
  split
  · exact Keeps.throw _
  · exact Keeps.pure _

theorem keeps_read (addr : UInt16) (block : UInt8) (n : Nat) : Keeps Inv (read addr block n) := by
  unfold read
  rcases blockType block with _ | t
  · exact Keeps.throw _
  · cases t
    · exact keeps_readEach (fun a s hs => hs) n addr
    · exact keeps_readEach (fun a => keeps_regRd a _) n addr
    · exact keeps_readEach (fun a => keeps_getSocket fun k _ => keeps_bufRd _ _) n addr
    · exact keeps_readEach (fun a => keeps_getSocket fun k _ => keeps_bufRd _ _) n addr

theorem keeps_commonWr (addr : UInt16) (b : UInt8) : Keeps Inv (commonRegWr addr b) := by
  unfold commonRegWr
  split
  · intro s hs
    rw [M.modify_run]
    dsimp only
    split
    · exact fun _ => SocketOk.default
    · exact hs
  · exact keeps_modify fun _ => rfl
  · exact Keeps.pure _

theorem clearBit_lt (m v x : UInt8) (hx : x.toNat < 16) : (clearBit m v x).toNat < 16 := by
  unfold clearBit
  split
  · rw [UInt8.toNat_and]
    exact Nat.lt_of_le_of_lt Nat.and_le_right hx
  · exact hx

theorem keeps_writeIr (sn : Sn) (v : UInt8) : Keeps Inv (M.modify (writeIr sn v)) := by
  intro s hs
  rw [M.modify_run]
  show Inv (writeIr sn v s)
  have h : (writeIr sn v s).sn = (s.setSocket sn { s.sn sn with regs := { (s.sn sn).regs with ir := ⟨
      clearBit SocketInterrupt.sendokMask v (clearBit SocketInterrupt.timeoutMask v (clearBit SocketInterrupt.recvMask v
        (clearBit SocketInterrupt.disconMask v (clearBit SocketInterrupt.conMask v (s.sn sn).regs.ir.raw))))⟩ } }).sn := by
    unfold writeIr
    dsimp only
    split <;> rfl
  intro j
  rw [h]
  by_cases hj : j = sn
  · subst hj
    rw [setSocket_same]
    exact ⟨(hs j).tx, (hs j).rx, (hs j).fsr, clearBit_lt _ _ _ (clearBit_lt _ _ _ (clearBit_lt _ _ _ (clearBit_lt _ _ _ (clearBit_lt _ _ _ (hs j).ir))))⟩
  · rw [setSocket_other _ _ _ _ hj]; exact hs j

theorem resize_length (b : Bytes) (n : Nat) : (resize b n).length = n := by
  simp only [resize, List.length_append, List.length_take, List.length_replicate]
  omega

theorem put_keeps (r r' : SocketRegs) (v : UInt8) (reg : SnReg) (h : r.put v reg = some r') :
    r'.txbufSize = r.txbufSize ∧ r'.rxbufSize = r.rxbufSize ∧ r'.txFsr = r.txFsr ∧ r'.ir = r.ir := by
  cases reg <;> first | (cases h; done) | (injection h with e; subst e; exact ⟨rfl, rfl, rfl, rfl⟩)

theorem keeps_cmd (dbg : Bool) (sn : Sn) (v : UInt8) : Keeps Inv (socketCmd dbg sn v) := by
  unfold socketCmd
  split
  · exact keeps_open sn
  · exact keeps_connect sn
  · exact keeps_close sn
  · exact keeps_send dbg sn
  · exact keeps_recv dbg sn
  · exact keeps_listen sn
  · exact Keeps.throw _

theorem keeps_socketWr (dbg : Bool) (addr : UInt16) (v : UInt8) (sn : Sn) : Keeps Inv (socketRegWr dbg addr v sn) := by
  unfold socketRegWr
  split
  · exact Keeps.pure _
  · exact keeps_cmd dbg sn v
  · exact keeps_writeIr sn v
  · split
    · exact keeps_modSocket fun _ hk => ⟨hk.tx, resize_length _ _, hk.fsr, hk.ir⟩
    · exact Keeps.throw _
  · split
    · exact keeps_modSocket fun _ hk => ⟨resize_length _ _, hk.rx, hk.fsr, hk.ir⟩
    · exact Keeps.throw _
  · rename_i reg _ _ _ _ _
    intro s hs
    rw [M.bind_ok (getSocket_run sn s)]
    rcases h : (s.sn sn).regs.put v reg with _ | r'
    · exact hs
    · obtain ⟨h1, h2, h3, h4⟩ := put_keeps _ _ _ _ h
      intro j
      show SocketOk ((s.setSocket sn { s.sn sn with regs := r' }).sn j)
      by_cases hj : j = sn
      · subst hj
        rw [setSocket_same]
        exact ⟨by rw [h1]; exact (hs j).tx, by rw [h2]; exact (hs j).rx, by rw [h3]; exact (hs j).fsr, by rw [h4]; exact (hs j).ir⟩
      · rw [setSocket_other _ _ _ _ hj]; exact hs j

theorem keeps_write (dbg : Bool) (addr : UInt16) (block : UInt8) (xs : Bytes) : Keeps Inv (write dbg addr block xs) := by
  unfold write
  rcases blockType block with _ | t
  · exact Keeps.throw _
  · cases t with
    | common => exact keeps_writeEach (fun a b => keeps_commonWr a b) xs addr
    | socket sn => exact keeps_writeEach (fun a b => keeps_socketWr dbg a b _) xs addr
    | tx sn =>
      refine keeps_writeEach (fun a b s hs => ?_) xs addr
      rw [M.bind_ok (getSocket_run sn s)]
      unfold bufWr
      split
      · exact hs
      · intro j
        show SocketOk ((s.setSocket sn { s.sn sn with txBuf := (s.sn sn).txBuf.set (a.toNat % (s.sn sn).txBuf.length) b }).sn j)
        by_cases hj : j = sn
        · subst hj
          rw [setSocket_same]
          exact ⟨by rw [List.length_set]; exact (hs j).tx, (hs j).rx, (hs j).fsr, (hs j).ir⟩
        · rw [setSocket_other _ _ _ _ hj]; exact hs j
    | rx sn =>
      refine keeps_writeEach (fun a b s hs => ?_) xs addr
      rw [M.bind_ok (getSocket_run sn s)]
      unfold bufWr
      split
      · exact hs
      · intro j
        show SocketOk ((s.setSocket sn { s.sn sn with rxBuf := (s.sn sn).rxBuf.set (a.toNat % (s.sn sn).rxBuf.length) b }).sn j)
        by_cases hj : j = sn
        · subst hj
          rw [setSocket_same]
          exact ⟨(hs j).tx, by rw [List.length_set]; exact (hs j).rx, (hs j).fsr, (hs j).ir⟩
        · rw [setSocket_other _ _ _ _ hj]; exact hs j

/-- The states of a simulator after any accesses, whatever the operating system answers. -/
inductive Reached (dbg : Bool) : Sim → Prop where
  | start (answers : List Answer) : Reached dbg ⟨.reset, fun _ => .default, answers, []⟩
  | read (addr : UInt16) (block : UInt8) (n : Nat) {s : Sim} (h : Reached dbg s) : Reached dbg ((simBus dbg).read addr block n s).2
  | write (addr : UInt16) (block : UInt8) (data : Bytes) {s : Sim} (h : Reached dbg s) : Reached dbg ((simBus dbg).write addr block data s).2

theorem Reached.inv {dbg : Bool} {s : Sim} (h : Reached dbg s) : Inv s := by
  induction h with
  | start => exact fun _ => SocketOk.default
  | read addr block n _ ih => exact Keeps.bind (keeps_read addr block n) (fun _ => Keeps.pure _) _ ih
  | write addr block data _ ih => exact keeps_write dbg addr block data _ ih

end Verif.Sim
