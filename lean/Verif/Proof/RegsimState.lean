import Verif.Proof.RegsimUdp
/-!
# The register simulator: status of the sockets
-/
namespace Verif.Sim
open Verif.Hl

/-- Two states of a socket with the same connection and status. -/
def SameConn (k k' : Socket) : Prop := k'.inner = k.inner ∧ k'.client = k.client ∧ k'.regs.sr = k.regs.sr

/-- A socket keeps its connection and status. -/
def ConnIs (sn : Sn) (k : Socket) (s : Sim) : Prop := SameConn k (s.sn sn)

variable {sn : Sn} {k₀ : Socket}

theorem conn_modSocket {j : Sn} {f : Socket → Socket} (h : ∀ k, SameConn k (f k)) : Keeps (ConnIs sn k₀) (modSocket j f) := by
  intro s hs
  show SameConn k₀ ((s.setSocket j (f (s.sn j))).sn sn)
  by_cases hj : sn = j
  · subst hj
    rw [setSocket_same]
    obtain ⟨a, b, c⟩ := h (s.sn sn)
    exact ⟨a.trans hs.1, b.trans hs.2.1, c.trans hs.2.2⟩
  · rw [setSocket_other _ _ _ _ hj]; exact hs

theorem conn_modSocketOther {j : Sn} {f : Socket → Socket} (h : sn ≠ j) : Keeps (ConnIs sn k₀) (modSocket j f) := by
  intro s hs
  show SameConn k₀ ((s.setSocket j (f (s.sn j))).sn sn)
  rw [setSocket_other _ _ _ _ h]; exact hs

theorem conn_getSocket {j : Sn} {α : Type} {f : Socket → M Sim α} (h : ∀ k, (sn = j → SameConn k₀ k) → Keeps (ConnIs sn k₀) (f k)) :
    Keeps (ConnIs sn k₀) (getSocket j >>= f) := by
  intro s hs
  rw [M.bind_ok (getSocket_run j s)]
  exact h _ (fun e => e ▸ hs) s hs

theorem conn_ask : Keeps (ConnIs sn k₀) ask := by
  intro s hs
  unfold ask
  split <;> exact hs

theorem conn_askUnit : Keeps (ConnIs sn k₀) askUnit :=
  Keeps.bind conn_ask fun a => by cases a <;> first | exact Keeps.pure _ | exact Keeps.throw _

theorem conn_raise (j : Sn) (int : UInt8) : Keeps (ConnIs sn k₀) (raiseSnIr j int) :=
  Keeps.bind (fun _ hs => hs) fun _ => conn_modSocket fun _ => ⟨rfl, rfl, rfl⟩

theorem rxPush_conn (data : Bytes) (k k' : Socket) (h : k.rxPush data = some k') : SameConn k k' := by
  induction data generalizing k with
  | nil => injection h with h; exact h ▸ ⟨rfl, rfl, rfl⟩
  | cons b rest ih =>
    unfold Socket.rxPush at h
    split at h
    · cases h
    · split at h
      · injection h with h; exact h ▸ ⟨rfl, rfl, rfl⟩
      · split at h
        · cases h
        · obtain ⟨a, b, c⟩ := ih _ h
          exact ⟨a, b, c⟩

theorem conn_rxBuf (j : Sn) (data : Bytes) : Keeps (ConnIs sn k₀) (simSetSnRxBuf j data) := by
  intro s hs
  unfold simSetSnRxBuf
  rw [M.bind_ok (getSocket_run j s)]
  rcases h : (s.sn j).rxPush data with _ | k'
  · exact hs
  · show SameConn k₀ ((s.setSocket j k').sn sn)
    by_cases hj : sn = j
    · subst hj
      rw [setSocket_same]
      obtain ⟨a, b, c⟩ := rxPush_conn _ _ _ h
      exact ⟨a.trans hs.1, b.trans hs.2.1, c.trans hs.2.2⟩
    · rw [setSocket_other _ _ _ _ hj]; exact hs

theorem conn_readStream (j : Sn) (n : Nat) : Keeps (ConnIs sn k₀) (readStream j n) := by
  unfold readStream
  refine Keeps.bind conn_ask fun a => ?_
  cases a with
  | done => exact Keeps.pure _
  | wouldBlock => exact Keeps.pure _
  | fail k => exact Keeps.throw _
  | data o b =>
    show Keeps (ConnIs sn k₀) (if _ then _ else _)
    split
    · exact Keeps.pure _
    · exact Keeps.bind (conn_rxBuf _ _) fun _ => conn_raise _ _

/-- Looking for news changes the status only of a listening socket that has not accepted a connection. -/
theorem conn_check (j : Sn) (h₀ : k₀.inner = some .tcpListener → k₀.client = true) : Keeps (ConnIs sn k₀) (checkSocket j) := by
  unfold checkSocket
  refine conn_getSocket fun k hk => ?_
  rcases hki : k.inner with _ | t
  · exact Keeps.pure _
  · cases t
    · refine Keeps.bind conn_ask fun a => ?_
      cases a with
      | done => exact Keeps.pure _
      | wouldBlock => exact Keeps.pure _
      | fail k => exact Keeps.throw _
      | data o b =>
        exact Keeps.bind (conn_rxBuf _ _) fun _ => Keeps.bind (conn_rxBuf _ _) fun _ => Keeps.bind (conn_rxBuf _ _) fun _ =>
          Keeps.bind (conn_rxBuf _ _) fun _ => conn_raise _ _
    · show Keeps (ConnIs sn k₀) (if k.client then _ else _)
      split
      · exact conn_readStream _ _
      · rename_i hc
        have hne : sn ≠ j := by
          intro e
          obtain ⟨a, b, -⟩ := hk e
          rw [hki] at a
          rw [b] at hc
          exact hc (h₀ a.symm)
        have hac : Keeps (ConnIs sn k₀) (askUnit >>= fun _ => modSocket j (fun k => { k with client := true }) >>= fun _ =>
            raiseSnIr j SocketInterrupt.conMask >>= fun _ => simSetSnSr j .established) :=
          Keeps.bind conn_askUnit fun _ => Keeps.bind (conn_modSocketOther hne) fun _ =>
            Keeps.bind (conn_raise _ _) fun _ => conn_modSocketOther hne
        refine Keeps.bind conn_ask fun a => ?_
        cases a with
        | done => exact hac
        | wouldBlock => exact Keeps.pure _
        | fail k => exact Keeps.throw _
        | data o b => exact hac
    · exact conn_readStream _ _

theorem conn_readEach {f : UInt16 → M Sim UInt8} (hf : ∀ a, Keeps (ConnIs sn k₀) (f a)) (n : Nat) (a : UInt16) :
    Keeps (ConnIs sn k₀) (readEach f n a) := by
  induction n generalizing a with
  | zero => exact Keeps.pure _
  | succ n ih => exact Keeps.bind (hf a) fun _ => Keeps.bind (ih _) fun _ => Keeps.pure _

theorem conn_bufRd (b : Bytes) (a : UInt16) : Keeps (ConnIs sn k₀) (bufRd b a) := by
  unfold bufRd
  split
  · exact Keeps.throw _
  · exact Keeps.pure _

theorem conn_read (dbg : Bool) (h₀ : k₀.inner = some .tcpListener → k₀.client = true) (addr : UInt16) (block : UInt8) (n : Nat) :
    Keeps (ConnIs sn k₀) ((simBus dbg).read addr block n) := by
  refine Keeps.bind ?_ fun _ => Keeps.pure _
  unfold read
  rcases blockType block with _ | t
  · exact Keeps.throw _
  · cases t
    · exact conn_readEach (fun a s hs => hs) n addr
    · refine conn_readEach (fun a => ?_) n addr
      unfold socketRegRd
      refine conn_getSocket fun k _ => Keeps.bind ?_ fun _ => Keeps.pure _
      split
      · exact conn_check _ h₀
      · exact Keeps.pure _
    · exact conn_readEach (fun a => conn_getSocket fun k _ => conn_bufRd _ _) n addr
    · exact conn_readEach (fun a => conn_getSocket fun k _ => conn_bufRd _ _) n addr

/-- A call of the operating system that fails. -/
theorem askOk_fail (s : Sim) (kind : Nat) (rest : List Answer) (h : s.answers = .fail kind :: rest) : askOk s = (.ok false, { s with answers := rest }) := by
  have ha : ask s = (.ok (.fail kind), { s with answers := rest }) := by unfold ask; rw [h]
  unfold askOk
  rw [M.bind_ok ha]
  rfl

/-- An interrupt and a status. -/
theorem raiseSr_run (sn : Sn) (int : UInt8) (st : SocketStatus) (s : Sim) :
    (raiseSnIr sn int >>= fun _ => simSetSnSr sn st) s
      = (.ok (), { s.setSocket sn { s.sn sn with regs := { (s.sn sn).regs with ir := ⟨(s.sn sn).regs.ir.raw ||| int⟩, sr := st } } with
          regs.sir := s.regs.sir ||| sn.bitmask }) := by
  refine Prod.ext rfl ?_
  unfold raiseSnIr simSetSnSr modRegs modSocket
  simp only [M.bind_run, M.modify_run]
  show Sim.mk _ _ _ _ = Sim.mk _ _ _ _
  congr 1
  funext j
  by_cases hj : j = sn
  · subst hj; simp [Sim.setSocket]
  · simp [Sim.setSocket, hj]

theorem srRaise_run (sn : Sn) (int : UInt8) (st : SocketStatus) (s : Sim) :
    (simSetSnSr sn st >>= fun _ => raiseSnIr sn int) s
      = (.ok (), { s.setSocket sn { s.sn sn with regs := { (s.sn sn).regs with ir := ⟨(s.sn sn).regs.ir.raw ||| int⟩, sr := st } } with
          regs.sir := s.regs.sir ||| sn.bitmask }) := by
  refine Prod.ext rfl ?_
  unfold raiseSnIr simSetSnSr modRegs modSocket
  simp only [M.bind_run, M.modify_run]
  show Sim.mk _ _ _ _ = Sim.mk _ _ _ _
  congr 1
  funext j
  by_cases hj : j = sn
  · subst hj; simp [Sim.setSocket]
  · simp [Sim.setSocket, hj]

/-- The status as it is read. -/
theorem snSr_of_rd (dbg : Bool) {sn : Sn} {s s' : Sim} {v : UInt8} (h : socketRegRd SnReg.SR.addr sn s = (.ok v, s')) :
    (simBus dbg).snSr sn s = (.ok (SocketStatus.tryFrom v), s') := by
  have h1 : read SnReg.SR.addr sn.block 1 s = (.ok [v], s') := by
    unfold read
    rw [socket_block]
    exact (M.bind_ok h).trans rfl
  have h2 : (simBus dbg).read SnReg.SR.addr sn.block 1 s = (.ok #v[v], s') := by
    rw [simBus_read, M.bind_ok h1]
    rfl
  unfold Bus.snSr
  rw [M.bind_ok h2]
  rfl

end Verif.Sim
