import Verif.Proof.Call
import Verif.Proof.TcpRx
/-!
# C22, C23, C24: what the socket calls touch, check and report
-/
namespace Verif.Thm
open Verif Hl Spec

/-- C22: on any bus (whatever it answers, including failures), every write issued by a call on socket
`sn` goes to the register, transmit or receive block of `sn`. -/
theorem C22_writes_own_blocks {σ : Type} (b : Bus σ) (dbg : Bool) (fuel : Nat) (sn : Sn) (c : Call) (s : σ) :
    ∀ blk ∈ (c.exec dbg fuel (recordWrites b) sn (s, [])).2.2,
      blk.toNat = 4 * sn.toU8.toNat + 1 ∨ blk.toNat = 4 * sn.toU8.toNat + 2 ∨ blk.toNat = 4 * sn.toU8.toNat + 3 := by
  have h := closed_call (b := recordWrites b) (sn := sn)
    (closed_of_rel (W := OwnBlock sn) (fun s t => ∀ blk ∈ t.2, blk ∈ s.2 ∨ OwnBlock sn blk)
      (fun s blk h => .inl h)
      (fun s t u h1 h2 blk h => by
        rcases h2 blk h with h | h
        · exact h1 blk h
        · exact .inr h)
      (fun a blk n s x h => .inl h)
      (fun a blk bs s hW x h => by
        rcases List.mem_append.mp h with h | h
        · exact .inl h
        · rw [List.mem_singleton.mp h]; exact .inr hW)) dbg fuel c (s, [])
  intro blk hb
  rcases h blk hb with h | h | h | h
  · exact absurd h List.not_mem_nil
  · rw [h]; exact .inl (Sn.block_toNat sn)
  · rw [h]; exact .inr (.inl (Sn.txBlock_toNat sn))
  · rw [h]; exact .inr (.inr (Sn.rxBlock_toNat sn))

example : ((Call.tcpWrite [1, 2, 3]).exec false 0 (recordWrites worldBus) .sn2
    (⟨⟨fun b a => if b = 9 ∧ a = 0x1F then 2 else if b = 9 ∧ a = 0x20 then 8 else 0, [], fun _ => []⟩, []⟩, [])).2.2
      = [10, 9, 9] := by decide +kernel

/-- C22: with nothing else going on, a call on socket `sn` leaves every byte of every block other than
the three of `sn` — the common registers and the registers and buffers of the other sockets — as it was,
and neither receives nor sends anything for another socket. -/
theorem C22_others_unchanged (dbg : Bool) (fuel : Nat) (sn : Sn) (c : Call) (chip : Chip) :
    let chip' := (c.exec dbg fuel worldBus sn ⟨chip, []⟩).2.chip
    (∀ b a, b ≠ 4 * sn.toU8.toNat + 1 → b ≠ 4 * sn.toU8.toNat + 2 → b ≠ 4 * sn.toU8.toNat + 3 →
      chip'.mem b a = chip.mem b a) ∧
    (∀ j, j ≠ sn.toU8.toNat → chip'.received j = chip.received j) ∧
    chip'.sent.filter (·.sock ≠ sn.toU8.toNat) = chip.sent.filter (·.sock ≠ sn.toU8.toNat) := by
  have h := closed_call (b := worldBus) (sn := sn)
    (closed_of_rel (W := OwnBlock sn) (fun s t => s.sched = [] → t.sched = [] ∧
        (∀ b a, b ≠ 4 * sn.toU8.toNat + 1 → b ≠ 4 * sn.toU8.toNat + 2 → b ≠ 4 * sn.toU8.toNat + 3 →
          t.chip.mem b a = s.chip.mem b a) ∧
        (∀ j, j ≠ sn.toU8.toNat → t.chip.received j = s.chip.received j) ∧
        t.chip.sent.filter (·.sock ≠ sn.toU8.toNat) = s.chip.sent.filter (·.sock ≠ sn.toU8.toNat))
      (fun s h => ⟨h, fun _ _ _ _ _ => rfl, fun _ _ => rfl, rfl⟩)
      (fun s t u h1 h2 hs => by
        obtain ⟨a0, a1, a2, a3⟩ := h1 hs
        obtain ⟨b0, b1, b2, b3⟩ := h2 a0
        exact ⟨b0, fun b a h1 h2 h3 => (b1 b a h1 h2 h3).trans (a1 b a h1 h2 h3),
          fun j hj => (b2 j hj).trans (a2 j hj), b3.trans a3⟩)
      (fun a blk n s hs => by
        rw [worldBus_read]
        have : s.tick = s := by unfold World.tick; rw [hs]
        rw [this]
        exact ⟨hs, fun _ _ _ _ _ => rfl, fun _ _ => rfl, rfl⟩)
      (fun a blk bs s hW hs => by
        rw [worldBus_write]
        have : s.tick = s := by unfold World.tick; rw [hs]
        rw [this]
        refine ⟨hs, writeBytes_frame sn.toU8.toNat blk.toNat ?_ bs s.chip a.toNat⟩
        rcases hW with h | h | h
        · rw [h]; exact .inl (Sn.block_toNat sn)
        · rw [h]; exact .inr (.inl (Sn.txBlock_toNat sn))
        · rw [h]; exact .inr (.inr (Sn.rxBlock_toNat sn)))) dbg fuel c ⟨chip, []⟩
  exact (h rfl).2

/-- C24: on any bus, a call that meets a failing access returns that failure and makes no access after
it; a call that returns anything else met no failing access. -/
theorem C24_failures_propagate {σ : Type} (b : Bus σ)
    (hr : ∀ a blk n s e, (b.read a blk n s).1 = .error e → ∃ x, e = .bus x)
    (hw : ∀ a blk bs s e, (b.write a blk bs s).1 = .error e → ∃ x, e = .bus x)
    (dbg : Bool) (fuel : Nat) (sn : Sn) (c : Call) (s : σ) :
    let out := c.exec dbg fuel (monitorBus b) sn (s, { failed := none, after := 0 })
    out.2.2.after = 0 ∧ ∀ e, out.2.2.failed = some e ↔ (out.1 = .error e ∧ ∃ x, e = .bus x) := by
  have h := closed_call (b := monitorBus b) (sn := sn) (P := fun {α} m => ∀ t : σ × Monitor, t.2.failed = none →
      ((∃ x, (m t).1 = .error (.bus x) ∧ (m t).2.2 = { t.2 with failed := some (.bus x) }) ∨
       ((∀ x, (m t).1 ≠ .error (.bus x)) ∧ (m t).2.2 = t.2)))
    { pure := fun a t h => .inr ⟨fun x => nofun, rfl⟩
      throw := fun e he t h => .inr ⟨fun x hx => by
          rw [M.throw_run] at hx
          exact he x (by injection hx), rfl⟩
      bind := fun m f hm hf t h => by
        rw [M.bind_run]
        have hmt := hm t h
        rcases e : m t with ⟨e' | a, s'⟩
        · rw [e] at hmt
          rcases hmt with ⟨x, h1, h2⟩ | ⟨h1, h2⟩
          · injection h1 with h1
            exact .inl ⟨x, by rw [h1], h2⟩
          · exact .inr ⟨fun x hx => h1 x (by injection hx with hx; rw [hx]), h2⟩
        · rw [e] at hmt
          rcases hmt with ⟨x, h1, h2⟩ | ⟨h1, h2⟩
          · exact absurd h1 (by nofun)
          · have h3 : s'.2 = t.2 := h2
            have := hf a s' (by rw [h3]; exact h)
            rw [h3] at this
            exact this
      read := fun a blk n t h => by
        show (∃ x, (b.read a blk n t.1).1 = _ ∧ t.2.note (b.read a blk n t.1).1 = _) ∨ (∀ x, (b.read a blk n t.1).1 ≠ _) ∧ t.2.note (b.read a blk n t.1).1 = _
        unfold Monitor.note
        rw [h]
        rcases e : (b.read a blk n t.1).1 with e' | v
        · obtain ⟨x, rfl⟩ := hr _ _ _ _ _ e
          exact .inl ⟨x, rfl, rfl⟩
        · exact .inr ⟨fun x => nofun, rfl⟩
      write := fun a blk n _ t h => by
        show (∃ x, (b.write a blk n t.1).1 = _ ∧ t.2.note (b.write a blk n t.1).1 = _) ∨ (∀ x, (b.write a blk n t.1).1 ≠ _) ∧ t.2.note (b.write a blk n t.1).1 = _
        unfold Monitor.note
        rw [h]
        rcases e : (b.write a blk n t.1).1 with e' | v
        · obtain ⟨x, rfl⟩ := hw _ _ _ _ _ e
          exact .inl ⟨x, rfl, rfl⟩
        · exact .inr ⟨fun x => nofun, rfl⟩ } dbg fuel c (s, ⟨none, 0⟩) rfl
  simp only
  rcases h with ⟨x, h1, h2⟩ | ⟨h1, h2⟩
  · rw [h2, h1]
    refine ⟨rfl, fun e => ⟨fun h => ?_, fun ⟨h, _⟩ => ?_⟩⟩
    · injection h with h; exact ⟨by rw [h], x, h.symm⟩
    · injection h with h; rw [h]
  · rw [h2]
    refine ⟨rfl, fun e => ⟨fun h => by simp at h, fun ⟨h, x, hx⟩ => ?_⟩⟩
    exact absurd (hx ▸ h) (h1 x)

/-- A bus whose third access fails, and a call on it. -/
def failingBus : Bus Nat where
  read _ _ n := fun k => if k = 2 then (.error (.bus 7), k + 1) else (.ok (Vector.replicate n 1), k + 1)
  write _ _ _ := fun k => if k = 2 then (.error (.bus 7), k + 1) else (.ok (), k + 1)

example : (Call.tcpWrite [1, 2]).exec false 0 (monitorBus failingBus) .sn0 (0, ⟨none, 0⟩)
    = (.error (.bus 7), (3, ⟨some (.bus 7), 0⟩)) := by rfl

/-- C23: the check run by `udp_bind`, `tcp_listen` and `tcp_connect` in debug builds reports a conflict
exactly when another socket holds the same source port and its status register is none of Closed (0x00),
CloseWait (0x1C) and Closing (0x1A); it changes nothing. -/
theorem C23_port_unique_exact (chip : Chip) (sn : Sn) (port : UInt16) :
    ∃ r, portIsUnique worldBus sn port ⟨chip, []⟩ = (.ok r, ⟨chip, []⟩) ∧
      (r = false ↔ ∃ other : Sn, other ≠ sn ∧ chip.srcPort other.toU8.toNat = port.toNat ∧
        chip.status other.toU8.toNat ≠ 0x00 ∧ chip.status other.toU8.toNat ≠ 0x1C ∧
        chip.status other.toU8.toNat ≠ 0x1A) := by
  have loop : ∀ l : List Sn, ∃ r, portIsUniqueLoop worldBus port l ⟨chip, []⟩ = (.ok r, ⟨chip, []⟩) ∧
      (r = false ↔ ∃ other ∈ l, chip.srcPort other.toU8.toNat = port.toNat ∧
        chip.status other.toU8.toNat ≠ 0x00 ∧ chip.status other.toU8.toNat ≠ 0x1C ∧
        chip.status other.toU8.toNat ≠ 0x1A) := by
    intro l
    induction l with
    | nil => exact ⟨true, rfl, by simp⟩
    | cons s l ih =>
      obtain ⟨r, e, hr⟩ := ih
      unfold portIsUniqueLoop
      rw [M.bind_ok (run_snPort s _)]
      have hp : UInt16.ofNat (chip.srcPort s.idx) = port ↔ chip.srcPort s.idx = port.toNat := by
        have := Mem.word_lt chip.mem (4 * s.idx + 1) 4
        constructor
        · rintro rfl; rw [UInt16.toNat_ofNat']; exact (Nat.mod_eq_of_lt this).symm
        · intro h; rw [h]; exact UInt16.ofNat_toNat
      have hst : ∀ x : UInt8, (SocketStatus.tryFrom x = .ok .closed ∨ SocketStatus.tryFrom x = .ok .closeWait ∨
          SocketStatus.tryFrom x = .ok .closing) ↔ ¬ (x ≠ 0x00 ∧ x ≠ 0x1C ∧ x ≠ 0x1A) := by
        apply forall_u8; decide +kernel
      show ∃ r, (if UInt16.ofNat (chip.srcPort s.idx) = port then _ else _ : M World Bool) ⟨chip, []⟩ = _ ∧ _
      by_cases h : UInt16.ofNat (chip.srcPort s.idx) = port
      · rw [if_pos h, M.bind_ok (run_snSr s _)]
        show ∃ r, (if SocketStatus.tryFrom (chip.status s.idx) = .ok .closed ∨
          SocketStatus.tryFrom (chip.status s.idx) = .ok .closeWait ∨
          SocketStatus.tryFrom (chip.status s.idx) = .ok .closing then _ else _ : M World Bool) ⟨chip, []⟩ = _ ∧ _
        by_cases h2 : SocketStatus.tryFrom (chip.status s.idx) = .ok .closed ∨
          SocketStatus.tryFrom (chip.status s.idx) = .ok .closeWait ∨
          SocketStatus.tryFrom (chip.status s.idx) = .ok .closing
        · rw [if_pos h2]
          refine ⟨r, e, hr.trans ?_⟩
          rw [hst] at h2
          simp only [List.mem_cons, exists_eq_or_imp]
          exact ⟨fun h => .inr h, fun h => h.resolve_left (fun h => h2 h.2)⟩
        · rw [if_neg h2]
          refine ⟨false, rfl, ?_⟩
          rw [hst, Classical.not_not] at h2
          simp only [true_iff]
          exact ⟨s, List.mem_cons_self, hp.mp h, h2⟩
      · rw [if_neg h]
        refine ⟨r, e, hr.trans ?_⟩
        simp only [List.mem_cons, exists_eq_or_imp]
        exact ⟨fun h => .inr h, fun h' => h'.resolve_left (fun h' => h (hp.mpr h'.1))⟩
  obtain ⟨r, e, hr⟩ := loop (sockets.filter (· ≠ sn))
  refine ⟨r, e, hr.trans ?_⟩
  have mem : ∀ o : Sn, o ∈ sockets := by intro o; cases o <;> decide
  constructor
  · rintro ⟨o, ho, h⟩
    exact ⟨o, by simpa using (List.mem_filter.mp ho).2, h⟩
  · rintro ⟨o, ho, h⟩
    exact ⟨o, List.mem_filter.mpr ⟨mem o, by simpa using ho⟩, h⟩

/-- C23: with a conflict, `udp_bind`, `tcp_listen` and `tcp_connect` panic in a debug build before touching
anything; without one, and in release builds always, the check makes no difference. -/
theorem C23_check_used (chip : Chip) (sn : Sn) (port : UInt16) (fuel : Nat) (addr : SockAddr) :
    let conflict := ∃ other : Sn, other ≠ sn ∧ chip.srcPort other.toU8.toNat = port.toNat ∧
        chip.status other.toU8.toNat ≠ 0x00 ∧ chip.status other.toU8.toNat ≠ 0x1C ∧
        chip.status other.toU8.toNat ≠ 0x1A
    let w : World := ⟨chip, []⟩
    (conflict → udpBind true fuel worldBus sn port w = (.error .panic, w) ∧
        tcpListen true fuel worldBus sn port w = (.error .panic, w) ∧
        tcpConnect true fuel worldBus sn port addr w = (.error .panic, w)) ∧
    (¬ conflict → udpBind true fuel worldBus sn port w = udpBind false fuel worldBus sn port w ∧
        tcpListen true fuel worldBus sn port w = tcpListen false fuel worldBus sn port w ∧
        tcpConnect true fuel worldBus sn port addr w = tcpConnect false fuel worldBus sn port addr w) := by
  obtain ⟨r, e, hr⟩ := C23_port_unique_exact chip sn port
  refine ⟨fun hc => ?_, fun hc => ?_⟩
  · have hr' := hr.mpr hc
    subst hr'
    have hd : debugAssert true (portIsUnique worldBus sn port) ⟨chip, []⟩ = (.error .panic, ⟨chip, []⟩) := by
      unfold debugAssert; rw [if_pos rfl, M.bind_ok e]; rfl
    exact ⟨M.bind_error hd, M.bind_error hd, M.bind_error hd⟩
  · have hr' : r = true := by
      cases r with
      | false => exact absurd (hr.mp rfl) hc
      | true => rfl
    subst hr'
    have hd : debugAssert true (portIsUnique worldBus sn port) ⟨chip, []⟩ = (.ok (), ⟨chip, []⟩) := by
      unfold debugAssert; rw [if_pos rfl, M.bind_ok e]; rfl
    have hf : debugAssert false (portIsUnique worldBus sn port) ⟨chip, []⟩ = (.ok (), ⟨chip, []⟩) := rfl
    refine ⟨?_, ?_, ?_⟩
    · unfold udpBind; rw [M.bind_ok hd, M.bind_ok hf]
    · unfold tcpListen; rw [M.bind_ok hd, M.bind_ok hf]
    · unfold tcpConnect; rw [M.bind_ok hd, M.bind_ok hf]

/-- Socket 3 listens on port 80; socket 5 is in CloseWait with port 81. -/
def portsChip : Chip :=
  ⟨fun b a => if b = 13 ∧ a = 5 then 80 else if b = 13 ∧ a = 3 then 0x14 else
    if b = 21 ∧ a = 5 then 81 else if b = 21 ∧ a = 3 then 0x1C else 0, [], fun _ => []⟩

example : portIsUnique worldBus .sn0 80 ⟨portsChip, []⟩ = (.ok false, ⟨portsChip, []⟩) := by rfl
example : (portIsUnique worldBus .sn3 80 ⟨portsChip, []⟩).1 = .ok true := by rfl
example : (portIsUnique worldBus .sn0 81 ⟨portsChip, []⟩).1 = .ok true := by rfl

end Verif.Thm
