import Verif.Proof.Open
/-!
# Writer programs that append a fixed string
-/
namespace Verif
open Hl Spec Thm

/-- Run with `k` bytes already written, the program appends exactly `bs` if there is room and fails otherwise. -/
def EmitsAt (k : Nat) (p : WProg Unit) (bs : Bytes) : Prop :=
  ∀ (n : Nat) (c : Image) (out : Bytes), out.length = k → Written c n out →
    (k + bs.length ≤ n → ∃ c', p.run imageOps c = (.ok (), c') ∧ Written c' n (out ++ bs)) ∧
    (¬ k + bs.length ≤ n → ∃ c', p.run imageOps c = (.error .outOfMemory, c'))

theorem EmitsAt.writeAll (k : Nat) (bs : Bytes) : EmitsAt k (.doWriteAll bs) bs := by
  intro n c out hk h
  constructor
  · intro hf; exact h.writeAll (by omega)
  · intro hf; exact ⟨_, h.writeAll_oom (by omega)⟩

theorem EmitsAt.nil (k : Nat) : EmitsAt k (pure ()) [] := by
  intro n c out hk h
  have := h.le; have := h.pos
  exact ⟨fun _ => ⟨c, rfl, by simpa using h⟩, fun hf => absurd (by simp; omega) hf⟩

theorem EmitsAt.bind {k : Nat} {p : WProg Unit} {q : Unit → WProg Unit} {a b : Bytes} (hp : EmitsAt k p a)
    (hq : EmitsAt (k + a.length) (q ()) b) : EmitsAt k (p >>= q) (a ++ b) := by
  intro n c out hk h
  rw [List.length_append]
  obtain ⟨p1, p2⟩ := hp n c out hk h
  by_cases hfa : k + a.length ≤ n
  · obtain ⟨c1, r1, w1⟩ := p1 hfa
    obtain ⟨q1, q2⟩ := hq n c1 (out ++ a) (by rw [List.length_append]; omega) w1
    rw [WProg.bind_ok r1]
    constructor
    · intro hf
      obtain ⟨c2, r2, w2⟩ := q1 (by omega)
      exact ⟨c2, r2, by rw [← List.append_assoc]; exact w2⟩
    · intro hf
      exact q2 (by omega)
  · obtain ⟨c1, r1⟩ := p2 hfa
    exact ⟨fun hf => absurd hf (by omega), fun _ => ⟨c1, WProg.bind_error r1⟩⟩

/-- Seeking to where the writer is does nothing. -/
theorem EmitsAt.seek {k : Nat} {o : UInt16} (ho : o.toNat = k) : EmitsAt k (.doSeek (.start o)) [] := by
  intro n c out hk h
  have h1 := h.len; have h2 := h.pos; have h3 := h.le
  refine ⟨fun _ => ⟨c, ?_, by simpa using h⟩, fun hf => absurd (by simp; omega) hf⟩
  rw [img_seekStart (by omega), show o.toNat = c.pos by omega]

theorem EmitsAt.cast {k k' : Nat} {p : WProg Unit} {a b : Bytes} (h : EmitsAt k p a) (hk : k = k') (hb : a = b) :
    EmitsAt k' p b := by subst hk hb; exact h

/-- A message written from the start and sent. -/
def emitSend (sn : Sn) (p : WProg Unit) : M World Unit := do
  let r ← socketWriter worldBus sn
  let (_, r) ← onWriter worldBus r p
  writerSend worldBus r

/-- A message written from the start and sent to an address. -/
def emitSendTo (dbg : Bool) (sn : Sn) (p : WProg Unit) (addr : SockAddr) : M World Unit := do
  let r ← socketWriter worldBus sn
  let (_, r) ← onWriter worldBus r p
  udpWriterSendTo dbg worldBus r addr

theorem Written.take {c : Image} {n : Nat} {out : Bytes} (h : Written c n out) : c.buf.take c.pos = out := by
  exact h.out

theorem M.bind2_error {σ α β γ} {a : M σ α} {b : α → M σ β} {s s' : σ} {e : Err} {k : β → M σ γ}
    (h : (a >>= b) s = (.error e, s')) : (a >>= fun y => b y >>= k) s = (.error e, s') := by
  change M.bind a _ s = _
  change M.bind a b s = _ at h
  unfold M.bind at h ⊢
  rcases ha : a s with ⟨e' | y, s1⟩
  · rw [ha] at h; simpa using h
  · rw [ha] at h; exact M.bind_error h

theorem emitSend_run' {sn : Sn} {w : World} (h : TxState w.chip sn.idx) {p : WProg Unit} {bs : Bytes} (hp : EmitsAt 0 p bs) :
    (∃ w', emitSend sn p w = (.ok (), w') ∧ TxState w'.chip sn.idx ∧ bs.length ≤ w.chip.txSize sn.idx ∧
      w'.chip.sent = w.chip.sent ++ [⟨sn.idx, w.chip.destIp sn.idx, w.chip.destPort sn.idx, bs⟩]) ∨
    (∃ w', emitSend sn p w = (.error .outOfMemory, w') ∧ w'.chip.sent = w.chip.sent ∧ w.chip.txFsr sn.idx < bs.length) := by
  obtain ⟨buf, b1, b2, b3, b4⟩ := writer_run sn w h p
  obtain ⟨p1, p2⟩ := hp buf.length ⟨buf, 0⟩ [] rfl (Written.start buf)
  by_cases hf : bs.length ≤ buf.length
  · obtain ⟨c', r1, w1⟩ := p1 (by omega)
    obtain ⟨r, w', k1, k2, w'', k3, k4, k5⟩ := b4 () c' r1
    left
    refine ⟨w'', ?_, k5, by omega, ?_⟩
    · unfold emitSend
      rw [M.bind2_ok k1]
      exact k3
    · rw [k4, w1.take]; rfl
  · obtain ⟨c', r1⟩ := p2 (by omega)
    obtain ⟨w', k1, k2⟩ := b3 _ c' r1
    right
    refine ⟨w', ?_, k2, by omega⟩
    unfold emitSend
    rw [M.bind2_error k1]

theorem emitSend_run {sn : Sn} {w : World} (h : TxState w.chip sn.idx) {p : WProg Unit} {bs : Bytes} (hp : EmitsAt 0 p bs) :
    (∃ w', emitSend sn p w = (.ok (), w') ∧ TxState w'.chip sn.idx ∧
      w'.chip.sent = w.chip.sent ++ [⟨sn.idx, w.chip.destIp sn.idx, w.chip.destPort sn.idx, bs⟩]) ∨
    (∃ e w', emitSend sn p w = (.error e, w') ∧ w'.chip.sent = w.chip.sent ∧ w.chip.txFsr sn.idx < bs.length) := by
  rcases emitSend_run' h hp with ⟨w', h1, h2, -, h3⟩ | ⟨w', h1, h2, h3⟩
  · exact .inl ⟨w', h1, h2, h3⟩
  · exact .inr ⟨_, w', h1, h2, h3⟩

theorem emitSendTo_run {dbg : Bool} {sn : Sn} {w : World} (h : TxState w.chip sn.idx) {p : WProg Unit} {bs : Bytes}
    (hp : EmitsAt 0 p bs) (addr : SockAddr) :
    (∃ w', emitSendTo dbg sn p addr w = (.ok (), w') ∧ TxState w'.chip sn.idx ∧
      w'.chip.sent = w.chip.sent ++ [⟨sn.idx, addr.ip.octets, addr.port.toNat, bs⟩]) ∨
    (∃ e w', emitSendTo dbg sn p addr w = (.error e, w') ∧ w'.chip.sent = w.chip.sent ∧
      (w.chip.txFsr sn.idx < bs.length ∨ dbg = true)) := by
  obtain ⟨r, img, e, -, -, -, -⟩ := run_socketWriter h
  obtain ⟨img, i1, i2, i3⟩ := C11_udp_send_to dbg sn addr w w.tick r h e
  obtain ⟨g1, w2, g2, g3⟩ := i3 p
  have hbuf : img = ⟨img.buf, 0⟩ := by cases img; cases i1; rfl
  obtain ⟨p1, p2⟩ := hp img.buf.length ⟨img.buf, 0⟩ [] rfl (Written.start img.buf)
  rw [← hbuf] at p1 p2
  have hfsr := tick_txFsr_ge h
  have hs := tick_sent w
  have hks : (p.run (writerOps worldBus) (w.tick, r)).2.1.chip.sent = w.tick.chip.sent := by
    obtain ⟨_, _, _, k⟩ := C11_writer_is_image sn w w.tick r h e
    exact (k p).2.2.2.2.1
  change img.buf.length = w.tick.chip.txFsr sn.idx at i2
  unfold emitSendTo
  rw [M.bind_ok e]
  by_cases hf : 0 + bs.length ≤ img.buf.length
  · obtain ⟨c', r1, w1⟩ := p1 hf
    rw [r1] at g1 g2
    rcases hr : p.run (writerOps worldBus) (w.tick, r) with ⟨x, w', r'⟩
    rw [hr] at g1 g2
    change x = _ at g1
    subst g1
    have ho : onWriter worldBus r p w.tick = (.ok ((), r'), w') := by unfold onWriter; rw [hr]
    rw [M.bind_ok ho]
    rcases g2 with ⟨k1, k2, k3⟩ | ⟨k1, k2⟩
    · right
      exact ⟨_, w2, k1, k3.trans hs, .inr k2⟩
    · left
      refine ⟨w2, k1, g3, ?_⟩
      rw [k2, hs]
      dsimp only
      rw [w1.take]; rfl
  · obtain ⟨c', r1⟩ := p2 hf
    rw [r1] at g1
    rcases hr : p.run (writerOps worldBus) (w.tick, r) with ⟨x, w', r'⟩
    rw [hr] at g1 hks
    change x = _ at g1
    subst g1
    have ho : onWriter worldBus r p w.tick = (.error .outOfMemory, w') := by unfold onWriter; rw [hr]
    rw [M.bind_error ho]
    exact .inr ⟨_, w', rfl, hks.trans hs, .inl (by omega)⟩

end Verif
