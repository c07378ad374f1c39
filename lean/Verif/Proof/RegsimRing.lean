import Verif.Proof.RegsimInv
/-!
# The register simulator: the rings
-/
namespace Verif.Sim

theorem distance_le (rd wr : UInt16) (h : rd.toNat ≤ wr.toNat) : distance rd wr = wr.toNat - rd.toNat := by
  have := wr.toNat_lt
  unfold distance
  omega

theorem distance_gt (rd wr : UInt16) (h : wr.toNat < rd.toNat) : distance rd wr = wr.toNat + 65536 - rd.toNat := by
  have := rd.toNat_lt
  unfold distance
  omega

theorem ringBytes_length (b : Bytes) (rd wr : UInt16) : (ringBytes b rd wr).length = distance rd wr := by simp [ringBytes]

theorem ringSlice_length (b : Bytes) (lo hi : Nat) : (ringSlice b lo hi).length = hi - lo := by simp [ringSlice]

theorem ringBytes_getElem? (b : Bytes) (rd wr : UInt16) (i : Nat) (h : i < distance rd wr) :
    (ringBytes b rd wr)[i]? = some (b.getD ((rd.toNat + i) % 65536 % b.length) 0) := by
  simp [ringBytes, List.getElem?_map, List.getElem?_range h]

theorem ringSlice_getElem? (b : Bytes) (lo hi : Nat) (i : Nat) (h : i < hi - lo) : (ringSlice b lo hi)[i]? = some (b.getD ((lo + i) % b.length) 0) := by
  simp [ringSlice, List.getElem?_map, List.getElem?_range h]

theorem slice_ordered (b : Bytes) (rd wr : UInt16) (h : rd.toNat ≤ wr.toNat) : ringSlice b rd.toNat wr.toNat = ringBytes b rd wr := by
  have := wr.toNat_lt
  unfold ringSlice ringBytes
  rw [distance_le rd wr h]
  apply List.map_congr_left
  intro i hi
  rw [List.mem_range] at hi
  rw [Nat.mod_eq_of_lt (a := rd.toNat + i) (b := 65536) (by omega)]

theorem slice_wrapped (b : Bytes) (rd wr : UInt16) (h : wr.toNat < rd.toNat) :
    ringSlice b rd.toNat 65535 ++ ringSlice b 0 wr.toNat = (ringBytes b rd wr).eraseIdx (65535 - rd.toNat) := by
  have hr := rd.toNat_lt
  have hd := distance_gt rd wr h
  apply List.ext_getElem?
  intro i
  rw [List.getElem?_eraseIdx]
  by_cases h1 : i < 65535 - rd.toNat
  · rw [if_pos h1, List.getElem?_append_left (by rw [ringSlice_length]; exact h1), ringSlice_getElem? _ _ _ _ h1,
      ringBytes_getElem? _ _ _ _ (by omega), Nat.mod_eq_of_lt (a := rd.toNat + i) (b := 65536) (by omega)]
  · rw [if_neg h1, List.getElem?_append_right (by rw [ringSlice_length]; omega), ringSlice_length]
    by_cases h2 : i - (65535 - rd.toNat) < wr.toNat
    · rw [ringSlice_getElem? _ _ _ _ (by omega), ringBytes_getElem? _ _ _ _ (by omega),
        show (rd.toNat + (i + 1)) % 65536 = 0 + (i - (65535 - rd.toNat)) by omega]
    · rw [List.getElem?_eq_none (by rw [ringSlice_length]; omega), List.getElem?_eq_none (by rw [ringBytes_length]; omega)]

/-- The operating system does not fail. -/
def OsOk (l : List Answer) : Prop := ∀ k, Answer.fail k ∉ l

theorem OsOk.drop {l : List Answer} (h : OsOk l) : OsOk (l.drop 1) := fun k hk => h k (List.mem_of_mem_drop hk)

theorem ask_run (s : Sim) : ∃ a, ask s = (.ok a, { s with answers := s.answers.drop 1 }) ∧ (OsOk s.answers → ∀ k, a ≠ .fail k) := by
  unfold ask
  rcases h : s.answers with _ | ⟨a, rest⟩
  · exact ⟨.wouldBlock, by rcases s with ⟨_, _, _, _⟩; cases h; rfl, fun _ k e => by cases e⟩
  · exact ⟨a, rfl, fun ho k e => ho k (by rw [e]; exact List.mem_cons_self)⟩

theorem askUnit_run (s : Sim) (h : OsOk s.answers) : askUnit s = (.ok (), { s with answers := s.answers.drop 1 }) := by
  obtain ⟨a, ha, hk⟩ := ask_run s
  unfold askUnit
  rw [M.bind_ok ha]
  cases a with
  | fail k => exact absurd rfl (hk h k)
  | _ => rfl

theorem askOk_run (s : Sim) (h : OsOk s.answers) : askOk s = (.ok true, { s with answers := s.answers.drop 1 }) := by
  obtain ⟨a, ha, hk⟩ := ask_run s
  unfold askOk
  rw [M.bind_ok ha]
  cases a with
  | fail k => exact absurd rfl (hk h k)
  | _ => rfl

/-- The commands. -/
theorem run_setSnCr (dbg : Bool) (sn : Sn) (c : SocketCommand) (s : Sim) : (simBus dbg).setSnCr sn c s = socketCmd dbg sn c.code s := by
  show (simBus dbg).write SnReg.CR.addr sn.block [c.code] s = _
  rw [write_socket]
  rfl

/-- The bytes of a SEND when the pointers are in order. -/
theorem sendBytes_ordered (dbg : Bool) (k : Socket) (hk : SocketOk k) (hne : k.regs.txRd ≠ k.regs.txWr) (hle : k.regs.txRd.toNat ≤ k.regs.txWr.toNat)
    (hfit : distance k.regs.txRd k.regs.txWr ≤ k.txBuf.length) : sendBytes dbg k = some (ringBytes k.txBuf k.regs.txRd k.regs.txWr) := by
  have hd := distance_le _ _ hle
  have hpos : 0 < distance k.regs.txRd k.regs.txWr := by
    have : k.regs.txRd.toNat ≠ k.regs.txWr.toNat := fun e => hne (UInt16.toNat_inj.mp e)
    omega
  have hnil : ringBytes k.txBuf k.regs.txRd k.regs.txWr ≠ [] := by
    intro e
    have := congrArg List.length e
    rw [ringBytes_length] at this
    simp at this
    omega
  unfold sendBytes
  simp only [if_pos hle, slice_ordered _ _ _ hle]
  have h1 := hk.tx
  rw [if_neg (fun e => e.2 (by omega)), if_neg (by omega), if_neg (fun e => hnil e.2)]

/-- The bytes of a SEND when the write pointer has wrapped. -/
theorem sendBytes_wrapped (dbg : Bool) (k : Socket) (hk : SocketOk k) (hlt : k.regs.txWr.toNat < k.regs.txRd.toNat)
    (hfit : distance k.regs.txRd k.regs.txWr ≤ k.txBuf.length) (h2 : dbg = false ∨ 2 ≤ distance k.regs.txRd k.regs.txWr) :
    sendBytes dbg k = some ((ringBytes k.txBuf k.regs.txRd k.regs.txWr).eraseIdx (65535 - k.regs.txRd.toNat)) := by
  have hd := distance_gt _ _ hlt
  have hr := k.regs.txRd.toNat_lt
  have h1 := hk.tx
  unfold sendBytes
  simp only [if_neg (Nat.not_le.mpr hlt), slice_wrapped _ _ _ hlt]
  rw [if_neg (fun e => e.2 (by omega)), if_neg (by omega), if_neg]
  rintro ⟨e1, e2⟩
  have := congrArg List.length e2
  rw [List.length_eraseIdx, ringBytes_length, if_pos (by omega)] at this
  rcases h2 with h2 | h2
  · rw [h2] at e1; cases e1
  · simp at this; omega

/-- A SEND of some bytes. -/
theorem send_run (dbg : Bool) (sn : Sn) (s : Sim) (bytes : Bytes) (hb : sendBytes dbg (s.sn sn) = some bytes) (hne : (s.sn sn).regs.txRd ≠ (s.sn sn).regs.txWr)
    (hi : (s.sn sn).inner = some .udp ∨ (s.sn sn).inner = some .tcpStream ∨ (s.sn sn).inner = some .tcpListener ∧ (s.sn sn).client = true)
    (ho : OsOk s.answers) :
    ∃ s', (simBus dbg).setSnCr sn .send s = (.ok (), s') ∧ s'.out = s.out ++ [⟨sn, (s.sn sn).regs.dest, bytes⟩] ∧ s'.regs = s.regs ∧
      s'.sn sn = { s.sn sn with regs := { (s.sn sn).regs with txRd := (s.sn sn).regs.txWr } } ∧ (∀ j, j ≠ sn → s'.sn j = s.sn j) ∧
      OsOk s'.answers := by
  have hrun : ∀ l, OsOk l → ∃ s', (modRegs sn fun r => { r with txRd := r.txWr })
        { s with answers := l, out := s.out ++ [⟨sn, (s.sn sn).regs.dest, bytes⟩] } = (.ok (), s') ∧
      s'.out = s.out ++ [⟨sn, (s.sn sn).regs.dest, bytes⟩] ∧ s'.regs = s.regs ∧
      s'.sn sn = { s.sn sn with regs := { (s.sn sn).regs with txRd := (s.sn sn).regs.txWr } } ∧ (∀ j, j ≠ sn → s'.sn j = s.sn j) ∧
      OsOk s'.answers := by
    intro l hl
    refine ⟨_, modRegs_run _ _ _, rfl, rfl, setSocket_same _ _ _, fun j hj => setSocket_other _ _ _ _ hj, hl⟩
  have hcmd : ∃ l, OsOk l ∧ socketCmdSend dbg sn s = (modRegs sn fun r => { r with txRd := r.txWr })
        { s with answers := l, out := s.out ++ [⟨sn, (s.sn sn).regs.dest, bytes⟩] } := by
    unfold socketCmdSend
    rw [M.bind_ok (getSocket_run sn s), if_neg (fun e => hne e.symm)]
    simp only [hb]
    have h1 := askUnit_run s ho
    have h2 := askUnit_run { s with answers := s.answers.drop 1 } ho.drop
    rcases hi with hi | hi | ⟨hi, hc⟩
    · rw [hi]
      have : (askUnit >>= fun _ => M.modify fun s' => { s' with out := s'.out ++ [⟨sn, (s.sn sn).regs.dest, bytes⟩] }) s
        = (.ok (), { s with answers := s.answers.drop 1, out := s.out ++ [⟨sn, (s.sn sn).regs.dest, bytes⟩] }) := by
        rw [M.bind_ok h1]; rfl
      rw [M.bind_ok this]
      exact ⟨_, ho.drop, rfl⟩
    · rw [hi]
      have : (askUnit >>= fun _ => askUnit >>= fun _ => M.modify fun s' => { s' with out := s'.out ++ [⟨sn, (s.sn sn).regs.dest, bytes⟩] }) s
        = (.ok (), { s with answers := (s.answers.drop 1).drop 1, out := s.out ++ [⟨sn, (s.sn sn).regs.dest, bytes⟩] }) := by
        rw [M.bind_ok h1, M.bind_ok h2]; rfl
      rw [M.bind_ok this]
      exact ⟨_, ho.drop.drop, rfl⟩
    · rw [hi]
      have : (askUnit >>= fun _ => askUnit >>= fun _ => M.modify fun s' => { s' with out := s'.out ++ [⟨sn, (s.sn sn).regs.dest, bytes⟩] }) s
        = (.ok (), { s with answers := (s.answers.drop 1).drop 1, out := s.out ++ [⟨sn, (s.sn sn).regs.dest, bytes⟩] }) := by
        rw [M.bind_ok h1, M.bind_ok h2]; rfl
      simp only [if_pos hc]
      rw [M.bind_ok this]
      exact ⟨_, ho.drop.drop, rfl⟩
  obtain ⟨l, hl, hc⟩ := hcmd
  rw [run_setSnCr]
  show ∃ s', socketCmdSend dbg sn s = (.ok (), s') ∧ _
  rw [hc]
  exact hrun l hl

theorem RxFine.pos {k : Socket} (h : RxFine k) : 0 < k.rxBuf.length ∧ k.rxBuf.length ≤ 16384 ∧ k.rxBuf.length ∣ 65536 := by
  have := h.size
  simp only [List.mem_cons, List.not_mem_nil, or_false] at this
  rcases this with e | e | e | e | e <;> rw [e] <;> decide

/-- A change of the receive side only. -/
def rxSide (k : Socket) (b : Bytes) (w r : UInt16) : Socket := { k with rxBuf := b, regs := { k.regs with rxWr := w, rxRsr := r } }

theorem mod_ne (L rd n i : Nat) (hi : i < n) (hn : n < L) (hd : L ∣ 65536) : (rd + i) % 65536 % L ≠ (rd + n) % 65536 % L := by
  rw [Nat.mod_mod_of_dvd _ hd, Nat.mod_mod_of_dvd _ hd]
  intro e
  have h1 : (rd + n) % L = ((rd + i) + (n - i)) % L := by congr 1; omega
  rw [h1] at e
  have hz : (n - i) % L = 0 := by
    have := Nat.sub_mod_eq_zero_of_mod_eq (m := rd + i + (n - i)) (n := rd + i) (k := L) e.symm
    rwa [Nat.add_sub_cancel_left] at this
  rw [Nat.mod_eq_of_lt (by omega)] at hz
  omega

theorem wr_pos (rd wr : UInt16) : wr.toNat = (rd.toNat + distance rd wr) % 65536 := by
  have := rd.toNat_lt
  have := wr.toNat_lt
  unfold distance
  omega

theorem push_one (k : Socket) (h : RxFine k) (b : UInt8) (hroom : distance k.regs.rxRd k.regs.rxWr < k.rxBuf.length) :
    let k' := rxSide k (k.rxBuf.set (k.regs.rxWr.toNat % k.rxBuf.length) b) (k.regs.rxWr + 1) (k.regs.rxRsr + 1)
    RxFine k' ∧ unread k' = unread k ++ [b] := by
  obtain ⟨h1, h2, h3⟩ := h.pos
  have hd : distance k.regs.rxRd (k.regs.rxWr + 1) = distance k.regs.rxRd k.regs.rxWr + 1 := by
    have := k.regs.rxRd.toNat_lt
    have := k.regs.rxWr.toNat_lt
    unfold distance at hroom ⊢
    rw [UInt16.toNat_add, show (1 : UInt16).toNat = 1 from rfl]
    omega
  refine ⟨⟨?_, ?_, ?_⟩, ?_⟩
  · show (k.rxBuf.set _ b).length ∈ _
    rw [List.length_set]; exact h.size
  · show (k.regs.rxRsr + 1).toNat = distance k.regs.rxRd (k.regs.rxWr + 1)
    rw [hd, UInt16.toNat_add, show (1 : UInt16).toNat = 1 from rfl, h.rsr]
    omega
  · show distance k.regs.rxRd (k.regs.rxWr + 1) ≤ (k.rxBuf.set _ b).length
    rw [List.length_set, hd]; omega
  · show ringBytes (k.rxBuf.set (k.regs.rxWr.toNat % k.rxBuf.length) b) k.regs.rxRd (k.regs.rxWr + 1) = ringBytes k.rxBuf k.regs.rxRd k.regs.rxWr ++ [b]
    have hw := wr_pos k.regs.rxRd k.regs.rxWr
    unfold ringBytes
    rw [hd, List.range_succ, List.map_append, List.length_set]
    congr 1
    · apply List.map_congr_left
      intro i hi
      rw [List.mem_range] at hi
      rw [List.getD_eq_getElem?_getD, List.getElem?_set_ne, ← List.getD_eq_getElem?_getD]
      rw [hw]
      exact (mod_ne _ _ _ i hi hroom h3).symm
    · rw [List.map_cons, List.map_nil, ← hw, List.getD_eq_getElem?_getD, List.getElem?_set_self (Nat.mod_lt _ h1)]
      rfl

/-- What a push does: as many bytes as there is room for are appended. -/
theorem rxPush_run (data : Bytes) (k : Socket) (h : RxFine k) : ∃ b w r, k.rxPush data = some (rxSide k b w r) ∧
    RxFine (rxSide k b w r) ∧ b.length = k.rxBuf.length ∧ unread (rxSide k b w r) = (unread k ++ data).take k.rxBuf.length := by
  induction data generalizing k with
  | nil =>
    refine ⟨k.rxBuf, k.regs.rxWr, k.regs.rxRsr, rfl, h, rfl, ?_⟩
    rw [List.append_nil, List.take_of_length_le]
    · rfl
    · unfold unread; rw [ringBytes_length]; exact h.fits
  | cons x rest ih =>
    obtain ⟨h1, h2, h3⟩ := h.pos
    have hlen : (unread k).length = distance k.regs.rxRd k.regs.rxWr := ringBytes_length _ _ _
    unfold Socket.rxPush
    rw [if_neg (by omega), h.rsr]
    by_cases hroom : distance k.regs.rxRd k.regs.rxWr < k.rxBuf.length
    · rw [if_neg (by omega), if_neg (by omega)]
      obtain ⟨hf, hu⟩ := push_one k h x hroom
      obtain ⟨b, w, r, hr, hfine, hl, hun⟩ := ih _ hf
      refine ⟨b, w, r, hr, hfine, ?_, ?_⟩
      · rw [hl]; exact List.length_set
      · rw [show rxSide k b w r = rxSide (rxSide k (k.rxBuf.set (k.regs.rxWr.toNat % k.rxBuf.length) x) (k.regs.rxWr + 1) (k.regs.rxRsr + 1)) b w r from rfl,
          hun, hu, List.append_assoc, List.singleton_append]
        congr 1
        exact List.length_set
    · rw [if_pos (by omega)]
      refine ⟨k.rxBuf, k.regs.rxWr, k.regs.rxRsr, rfl, h, rfl, ?_⟩
      have := h.fits
      rw [List.take_append_of_le_length (by omega), List.take_of_length_le (by omega)]
      rfl

/-- A push into a socket. -/
theorem simSetSnRxBuf_run (sn : Sn) (data : Bytes) (s : Sim) (h : RxFine (s.sn sn)) : ∃ b w r,
    simSetSnRxBuf sn data s = (.ok (), s.setSocket sn (rxSide (s.sn sn) b w r)) ∧ RxFine (rxSide (s.sn sn) b w r) ∧
    b.length = (s.sn sn).rxBuf.length ∧ unread (rxSide (s.sn sn) b w r) = (unread (s.sn sn) ++ data).take (s.sn sn).rxBuf.length := by
  obtain ⟨b, w, r, hr, hf, hl, hu⟩ := rxPush_run data (s.sn sn) h
  refine ⟨b, w, r, ?_, hf, hl, hu⟩
  unfold simSetSnRxBuf
  rw [M.bind_ok (getSocket_run sn s)]
  simp only [hr, modSocket_run]

theorem setSocket_twice (s : Sim) (sn : Sn) (k k' : Socket) : (s.setSocket sn k).setSocket sn k' = s.setSocket sn k' := by
  unfold Sim.setSocket
  simp only [Sim.mk.injEq, true_and, and_true]
  funext j
  by_cases h : j = sn <;> simp [h]

/-- A socket after an arrival: the receive side changed and the interrupt is raised. -/
def arrived (k : Socket) (b : Bytes) (w r : UInt16) : Socket :=
  { k with rxBuf := b, regs := { k.regs with rxWr := w, rxRsr := r, ir := ⟨k.regs.ir.raw ||| SocketInterrupt.recvMask⟩ } }

theorem raise_run (sn : Sn) (s : Sim) (b : Bytes) (w r : UInt16) :
    raiseSnIr sn SocketInterrupt.recvMask (s.setSocket sn (rxSide (s.sn sn) b w r))
      = (.ok (), { s.setSocket sn (arrived (s.sn sn) b w r) with regs.sir := s.regs.sir ||| sn.bitmask }) := by
  have h : ∀ (sir : UInt8) (t : Sim) (k : Socket) (f : Socket → Socket),
      ({ t.setSocket sn k with regs.sir := sir } : Sim).setSocket sn (f (({ t.setSocket sn k with regs.sir := sir } : Sim).sn sn))
        = { t.setSocket sn (f k) with regs.sir := sir } := by
    intro sir t k f
    have : ({ t.setSocket sn k with regs.sir := sir } : Sim).sn sn = k := setSocket_same t sn k
    rw [this]
    exact congrArg (fun x : Sim => ({ x with regs.sir := sir } : Sim)) (setSocket_twice t sn k (f k))
  unfold raiseSnIr
  exact congrArg (Prod.mk _) (h _ s _ (fun k => { k with regs := { k.regs with ir := ⟨k.regs.ir.raw ||| SocketInterrupt.recvMask⟩ } }))

theorem fine_arrived {k : Socket} {b : Bytes} {w r : UInt16} (h : RxFine (rxSide k b w r)) : RxFine (arrived k b w r) := ⟨h.size, h.rsr, h.fits⟩
theorem unread_arrived (k : Socket) (b : Bytes) (w r : UInt16) : unread (arrived k b w r) = unread (rxSide k b w r) := rfl

/-- Bytes of the operating system arrive in a socket: as many as there is room for. -/
theorem push_raise (sn : Sn) (data : Bytes) (s : Sim) (h : RxFine (s.sn sn)) : ∃ b w r,
    (simSetSnRxBuf sn data >>= fun _ => raiseSnIr sn SocketInterrupt.recvMask) s
      = (.ok (), { s.setSocket sn (arrived (s.sn sn) b w r) with regs.sir := s.regs.sir ||| sn.bitmask }) ∧
    RxFine (arrived (s.sn sn) b w r) ∧ b.length = (s.sn sn).rxBuf.length ∧
    unread (arrived (s.sn sn) b w r) = (unread (s.sn sn) ++ data).take (s.sn sn).rxBuf.length := by
  obtain ⟨b, w, r, hr, hf, hl, hu⟩ := simSetSnRxBuf_run sn data s h
  exact ⟨b, w, r, by rw [M.bind_ok hr, raise_run], fine_arrived hf, hl, hu⟩

theorem rxPush_cons (k : Socket) (x : UInt8) (rest : Bytes) : k.rxPush (x :: rest) =
    if k.rxBuf.length = 0 then none
    else if k.regs.rxRsr.toNat + 1 > k.rxBuf.length then some k
    else if k.regs.rxRsr.toNat + 1 ≥ 65536 then none
    else (rxSide k (k.rxBuf.set (k.regs.rxWr.toNat % k.rxBuf.length) x) (k.regs.rxWr + 1) (k.regs.rxRsr + 1)).rxPush rest := rfl

theorem push_push (sn : Sn) (d e : Bytes) (s : Sim) (h : RxFine (s.sn sn)) {α : Type} (f : M Sim α) :
    (simSetSnRxBuf sn d >>= fun _ => simSetSnRxBuf sn e >>= fun _ => f) s = (simSetSnRxBuf sn (d ++ e) >>= fun _ => f) s := by
  have key : ∀ (d : Bytes) (k : Socket), RxFine k → (k.rxPush d).bind (fun k' => k'.rxPush e) = k.rxPush (d ++ e) := by
    intro d
    induction d with
    | nil => intro k _; rfl
    | cons x rest ih =>
      intro k hk
      obtain ⟨h1, h2, h3⟩ := hk.pos
      have hz : k.rxBuf.length ≠ 0 := by omega
      rw [List.cons_append, rxPush_cons, rxPush_cons, if_neg hz, if_neg hz, hk.rsr]
      by_cases hroom : distance k.regs.rxRd k.regs.rxWr < k.rxBuf.length
      · rw [if_neg (by omega), if_neg (by omega), if_neg (by omega), if_neg (by omega)]
        exact ih _ (push_one k hk x hroom).1
      · rw [if_pos (by omega), if_pos (by omega)]
        show k.rxPush e = some k
        cases e with
        | nil => rfl
        | cons y e =>
          rw [rxPush_cons, if_neg hz, hk.rsr, if_pos (by omega)]
  have hk := key d _ h
  obtain ⟨b, w, r, hp, hfine, -, -⟩ := rxPush_run d (s.sn sn) h
  obtain ⟨b', w', r', hp', -, -, -⟩ := rxPush_run e _ hfine
  rw [hp] at hk
  have e1 : simSetSnRxBuf sn d s = (.ok (), s.setSocket sn (rxSide (s.sn sn) b w r)) := by
    unfold simSetSnRxBuf
    rw [M.bind_ok (getSocket_run sn s)]
    simp only [hp, modSocket_run]
  rw [M.bind_ok e1]
  unfold simSetSnRxBuf
  rw [bind_assoc, bind_assoc, M.bind_ok (getSocket_run sn _), M.bind_ok (getSocket_run sn _), setSocket_same, ← hk]
  simp only [Option.bind_some, hp']
  show f ((s.setSocket sn _).setSocket sn _) = f (s.setSocket sn _)
  rw [setSocket_twice]

/-- A datagram arrives. -/
theorem check_datagram (sn : Sn) (s : Sim) (o : SockAddr) (bytes : Bytes) (rest : List Answer) (ha : s.answers = .data o bytes :: rest)
    (hi : (s.sn sn).inner = some .udp) (h : RxFine (s.sn sn)) (hsize : (s.sn sn).regs.rxbufSize.sizeInBytes = (s.sn sn).rxBuf.length) : ∃ b w r,
    checkSocket sn s = (.ok (), { s.setSocket sn (arrived (s.sn sn) b w r) with regs.sir := s.regs.sir ||| sn.bitmask, answers := rest }) ∧
    RxFine (arrived (s.sn sn) b w r) ∧ b.length = (s.sn sn).rxBuf.length ∧
    unread (arrived (s.sn sn) b w r) = (unread (s.sn sn) ++ udpFrame o (bytes.take (s.sn sn).rxBuf.length)).take (s.sn sn).rxBuf.length := by
  obtain ⟨h1, h2, -⟩ := h.pos
  obtain ⟨b, w, r, hr, hf, hl, hu⟩ := push_raise sn (udpFrame o (bytes.take (s.sn sn).rxBuf.length)) { s with answers := rest } h
  refine ⟨b, w, r, ?_, hf, hl, hu⟩
  have hask : ask s = (.ok (.data o bytes), { s with answers := rest }) := by unfold ask; rw [ha]
  have hlen : (bytes.take (s.sn sn).rxBuf.length).length ≤ 65535 := by rw [List.length_take]; omega
  have hnum : (UInt16.ofNat (min 65535 (bytes.take (s.sn sn).rxBuf.length).length)).toNat = (bytes.take (s.sn sn).rxBuf.length).length := by
    rw [UInt16.toNat_ofNat']; omega
  have hmin : min 65535 (bytes.take (s.sn sn).rxBuf.length).length = (bytes.take (s.sn sn).rxBuf.length).length := by omega
  unfold checkSocket
  rw [M.bind_ok (getSocket_run sn s)]
  simp only [hi, M.bind_ok hask, hsize]
  have hp := fun d e (f : M Sim Unit) => push_push sn d e { s with answers := rest } h f
  rw [hp, hp, hp, hnum, hmin, List.take_length]
  exact hr

/-- Bytes of a stream arrive. -/
theorem check_stream (sn : Sn) (s : Sim) (o : SockAddr) (bytes : Bytes) (hne : bytes ≠ []) (rest : List Answer) (ha : s.answers = .data o bytes :: rest)
    (hi : (s.sn sn).inner = some .tcpStream ∨ (s.sn sn).inner = some .tcpListener ∧ (s.sn sn).client = true) (h : RxFine (s.sn sn))
    (hsize : (s.sn sn).regs.rxbufSize.sizeInBytes = (s.sn sn).rxBuf.length) : ∃ b w r,
    checkSocket sn s = (.ok (), { s.setSocket sn (arrived (s.sn sn) b w r) with regs.sir := s.regs.sir ||| sn.bitmask, answers := rest }) ∧
    RxFine (arrived (s.sn sn) b w r) ∧ b.length = (s.sn sn).rxBuf.length ∧
    unread (arrived (s.sn sn) b w r) = (unread (s.sn sn) ++ bytes).take (s.sn sn).rxBuf.length := by
  obtain ⟨h1, h2, -⟩ := h.pos
  obtain ⟨b, w, r, hr, hf, hl, hu⟩ := push_raise sn (bytes.take (s.sn sn).rxBuf.length) { s with answers := rest } h
  have hask : ask s = (.ok (.data o bytes), { s with answers := rest }) := by unfold ask; rw [ha]
  have hnil : bytes.take (s.sn sn).rxBuf.length ≠ [] := by
    intro e
    rcases List.take_eq_nil_iff.mp e with e | e
    · omega
    · exact hne e
  have hread : readStream sn (s.sn sn).rxBuf.length s
      = (.ok (), { s.setSocket sn (arrived (s.sn sn) b w r) with regs.sir := s.regs.sir ||| sn.bitmask, answers := rest }) := by
    unfold readStream
    rw [M.bind_ok hask]
    simp only [if_neg hnil]
    exact hr
  refine ⟨b, w, r, ?_, hf, hl, hu.trans ?_⟩
  · unfold checkSocket
    rw [M.bind_ok (getSocket_run sn s)]
    rcases hi with hi | ⟨hi, hc⟩
    · simp only [hi, hsize, hread]
    · simp only [hi, if_pos hc, hsize, hread]
  · show (unread (s.sn sn) ++ bytes.take (s.sn sn).rxBuf.length).take (s.sn sn).rxBuf.length = _
    rw [List.take_append, List.take_append, List.take_take]
    congr 2
    omega

end Verif.Sim
