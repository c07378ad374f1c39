import Verif.Proof.Reader
import Verif.Model.Hl.Udp
/-!
# C09 and C14: positions of readers and writers, on any bus
-/
namespace Verif.Thm
open Verif Hl Spec

/-- The reader or writer's position lies inside its stream. -/
def Inside (r : Ptrs) : Prop := (r.ptr - r.head).toNat ≤ (r.tail - r.head).toNat

/-- What a seek must do to a reader or writer in state `(s, r)`: go to the requested offset if that is
between 0 and the stream length, and otherwise fail and change nothing. -/
def SeekCorrect {σ : Type} (op : SeekFrom → M (σ × Ptrs) Unit) : Prop :=
  ∀ (pos : SeekFrom) (s : σ) (r : Ptrs), Inside r →
    let len := (r.tail - r.head).toNat
    let target := seekTarget len (r.ptr - r.head).toNat pos
    (0 ≤ target ∧ target ≤ len →
      ∃ p, op pos (s, r) = (.ok (), (s, { r with ptr := p })) ∧ ((p - r.head).toNat : Int) = target) ∧
    (¬ (0 ≤ target ∧ target ≤ len) → op pos (s, r) = (.error .unexpectedEof, (s, r)))

theorem seek_correct {σ : Type} (pos : SeekFrom) (s : σ) (r : Ptrs) (h : Inside r) :
    let len := (r.tail - r.head).toNat
    let target := seekTarget len (r.ptr - r.head).toNat pos
    let out : Except Err Unit × (σ × Ptrs) := match r.seek pos with
      | .ok r' => (.ok (), (s, r'))
      | .error e => (.error e, (s, r))
    (0 ≤ target ∧ target ≤ len → ∃ p, out = (.ok (), (s, { r with ptr := p })) ∧ ((p - r.head).toNat : Int) = target) ∧
    (¬ (0 ≤ target ∧ target ≤ len) → out = (.error .unexpectedEof, (s, r))) := by
  intro len target out
  have := newPtr_spec pos r.ptr r.head r.tail h
  constructor
  · intro ht
    obtain ⟨p, hp, hq⟩ := this.1 ht
    refine ⟨p, ?_, hq⟩
    simp only [out, Ptrs.seek, hp]
  · intro ht
    have hp := this.2 ht
    simp only [out, Ptrs.seek, hp]

/-- C09: seeking a TCP reader. -/
theorem C09_tcp_reader_seek {σ : Type} (b : Bus σ) : SeekCorrect (tcpReaderOps b).seek :=
  fun pos s r h => seek_correct pos s r h

/-- C09: seeking a TCP or UDP writer. -/
theorem C09_writer_seek {σ : Type} (b : Bus σ) : SeekCorrect (writerOps b).seek :=
  fun pos s r h => seek_correct pos s r h

/-- C09: seeking a UDP reader; the datagram header it carries stays. -/
theorem C09_udp_reader_seek {σ : Type} (b : Bus σ) (hd : UdpHeader) :
    SeekCorrect fun pos (s, r) =>
      let out := (udpReaderOps b).seek pos (s, ⟨r, hd⟩)
      (out.1, (out.2.1, out.2.2.inner)) :=
  fun pos s r h => seek_correct pos s r h

example : Inside ⟨.sn0, 0xFFF0, 0x0010, 0xFFFF⟩ ∧
    (tcpReaderOps worldBus).seek (.current 3) (⟨⟨fun _ _ => 0, [], fun _ => []⟩, []⟩, ⟨.sn0, 0xFFF0, 0x0010, 0xFFFF⟩)
      = (.ok (), (⟨⟨fun _ _ => 0, [], fun _ => []⟩, []⟩, ⟨.sn0, 0xFFF0, 0x0010, 0x0002⟩)) := by
  constructor
  · unfold Inside; decide
  · rfl

/-- C09: whatever a program does with a reader, on any bus, the position stays inside the stream, and
the stream's bounds and socket never change. -/
theorem C09_reader_stays_inside {σ α : Type} (b : Bus σ) (prog : RProg α) :
    ∀ (s : σ) (r : Ptrs), Inside r →
      let r' := (prog.run (tcpReaderOps b) (s, r)).2.2
      Inside r' ∧ r'.head = r.head ∧ r'.tail = r.tail ∧ r'.sn = r.sn := by
  have hmin : ∀ (r : Ptrs) (n : UInt16), Inside r → (min16 r.remain n).toNat ≤ (r.tail - r.ptr).toNat := by
    intro r n _; rw [min16_toNat, Ptrs.remain]; omega
  have hadv : ∀ (r : Ptrs) (n : UInt16), Inside r → n.toNat ≤ (r.tail - r.ptr).toNat →
      Inside { r with ptr := r.ptr + n } := by
    intro r n h hn
    unfold Inside at h ⊢
    simp only [u16_sub_toNat, UInt16.toNat_add] at h hn ⊢
    have := u16_lt r.ptr; have := u16_lt r.head; have := u16_lt r.tail; have := u16_lt n
    omega
  have key : ∀ (s : σ) (r : Ptrs), Inside r →
      (∀ n, Inside ((tcpReaderOps b).read n (s, r)).2.2 ∧ ((tcpReaderOps b).read n (s, r)).2.2.head = r.head ∧
        ((tcpReaderOps b).read n (s, r)).2.2.tail = r.tail ∧ ((tcpReaderOps b).read n (s, r)).2.2.sn = r.sn) ∧
      (∀ n, Inside ((tcpReaderOps b).readExact n (s, r)).2.2 ∧ ((tcpReaderOps b).readExact n (s, r)).2.2.head = r.head ∧
        ((tcpReaderOps b).readExact n (s, r)).2.2.tail = r.tail ∧ ((tcpReaderOps b).readExact n (s, r)).2.2.sn = r.sn) ∧
      (∀ p, Inside ((tcpReaderOps b).seek p (s, r)).2.2 ∧ ((tcpReaderOps b).seek p (s, r)).2.2.head = r.head ∧
        ((tcpReaderOps b).seek p (s, r)).2.2.tail = r.tail ∧ ((tcpReaderOps b).seek p (s, r)).2.2.sn = r.sn) := by
    intro s r h
    refine ⟨?_, ?_, ?_⟩
    · intro n
      simp only [tcpReaderOps, tcpReaderRead]
      by_cases hz : min16 r.remain (lenU16 n) ≠ 0
      · rw [if_pos hz, M.bind_run]
        rcases b.snRxBuf r.sn r.ptr (min16 r.remain (lenU16 n)).toNat s with ⟨e | x, s'⟩
        · exact ⟨h, rfl, rfl, rfl⟩
        · exact ⟨hadv r _ h (hmin r _ h), rfl, rfl, rfl⟩
      · rw [if_neg hz]; exact ⟨h, rfl, rfl, rfl⟩
    · intro n
      simp only [tcpReaderOps, tcpReaderReadExact]
      by_cases hz : min16 r.remain (lenU16 n) ≠ lenU16 n
      · rw [if_pos hz]; exact ⟨h, rfl, rfl, rfl⟩
      · rw [if_neg hz, M.bind_run]
        rcases b.snRxBuf r.sn r.ptr n s with ⟨e | x, s'⟩
        · exact ⟨h, rfl, rfl, rfl⟩
        · exact ⟨hadv r _ h (hmin r _ h), rfl, rfl, rfl⟩
    · intro p
      have := C09_tcp_reader_seek b p s r h
      by_cases ht : 0 ≤ seekTarget (r.tail - r.head).toNat (r.ptr - r.head).toNat p ∧
          seekTarget (r.tail - r.head).toNat (r.ptr - r.head).toNat p ≤ (r.tail - r.head).toNat
      · obtain ⟨q, e, hq⟩ := this.1 ht
        rw [e]
        refine ⟨?_, rfl, rfl, rfl⟩
        have h2 := ht.2
        rw [← hq] at h2
        exact Int.ofNat_le.mp h2
      · rw [this.2 ht]; exact ⟨h, rfl, rfl, rfl⟩
  induction prog with
  | ret x => intro s r h; exact ⟨h, rfl, rfl, rfl⟩
  | read n k ih =>
    intro s r h
    obtain ⟨h1, h2, h3, h4⟩ := (key s r h).1 n
    have := ih ((tcpReaderOps b).read n (s, r)).1 ((tcpReaderOps b).read n (s, r)).2.1 _ h1
    rw [h2, h3, h4] at this; exact this
  | readExact n k ih =>
    intro s r h
    obtain ⟨h1, h2, h3, h4⟩ := (key s r h).2.1 n
    have := ih ((tcpReaderOps b).readExact n (s, r)).1 ((tcpReaderOps b).readExact n (s, r)).2.1 _ h1
    rw [h2, h3, h4] at this; exact this
  | seek n k ih =>
    intro s r h
    obtain ⟨h1, h2, h3, h4⟩ := (key s r h).2.2 n
    have := ih ((tcpReaderOps b).seek n (s, r)).1 ((tcpReaderOps b).seek n (s, r)).2.1 _ h1
    rw [h2, h3, h4] at this; exact this
  | rewind k ih =>
    intro s r h
    exact ih s r.rewind (by unfold Inside Ptrs.rewind; simp)
  | streamLen k ih => intro s r h; exact ih _ s r h
  | streamPosition k ih => intro s r h; exact ih _ s r h
  | remain k ih => intro s r h; exact ih _ s r h

/-- C14: `read_exact` of `n` bytes with `rem` bytes remaining.  Buffers of the chip are at most 16 KiB, so
the hypothesis `rem < 65535` holds of every reader made by the crate; `n` is not bounded. -/
theorem C14_read_exact_all_or_nothing {σ : Type} (b : Bus σ) (r : Ptrs) (n : Nat) (s : σ)
    (hrem : (r.tail - r.ptr).toNat < 65535) :
    (n > (r.tail - r.ptr).toNat → (tcpReaderOps b).readExact n (s, r) = (.error .unexpectedEof, (s, r))) ∧
    (n ≤ (r.tail - r.ptr).toNat →
      let access := b.snRxBuf r.sn r.ptr n s
      match access.1 with
      | .ok x => (tcpReaderOps b).readExact n (s, r) = (.ok x, (access.2, { r with ptr := r.ptr + UInt16.ofNat n }))
      | .error e => (tcpReaderOps b).readExact n (s, r) = (.error e, (access.2, r))) := by
  have hm : (min16 r.remain (lenU16 n)).toNat = min (r.tail - r.ptr).toNat (min n 65535) := by
    rw [min16_toNat, lenU16_toNat, Ptrs.remain]
  constructor
  · intro hn
    have : min16 r.remain (lenU16 n) ≠ lenU16 n := by
      intro e; rw [e, lenU16_toNat] at hm; omega
    simp only [tcpReaderOps, tcpReaderReadExact]
    rw [if_pos this]; rfl
  · intro hn
    have : min16 r.remain (lenU16 n) = lenU16 n := by
      apply u16_ext; rw [hm, lenU16_toNat]; omega
    have hl : lenU16 n = UInt16.ofNat n := by unfold lenU16; rw [if_pos (by omega)]
    intro access
    simp only [tcpReaderOps, tcpReaderReadExact]
    rw [if_neg (by simp [this]), M.bind_run, this, hl]
    rcases hacc : b.snRxBuf r.sn r.ptr n s with ⟨e | x, s'⟩
    · simp only [access, hacc]
    · simp only [access, hacc]; rfl

/-- C14: `write_all` of `bs` with `rem` bytes of free space remaining. -/
theorem C14_write_all_all_or_nothing {σ : Type} (b : Bus σ) (r : Ptrs) (bs : Bytes) (s : σ)
    (hrem : (r.tail - r.ptr).toNat < 65535) :
    (bs.length > (r.tail - r.ptr).toNat → (writerOps b).writeAll bs (s, r) = (.error .outOfMemory, (s, r))) ∧
    (bs.length ≤ (r.tail - r.ptr).toNat →
      let access := b.setSnTxBuf r.sn r.ptr bs s
      match access.1 with
      | .ok _ => (writerOps b).writeAll bs (s, r) = (.ok (), (access.2, { r with ptr := r.ptr + UInt16.ofNat bs.length }))
      | .error e => (writerOps b).writeAll bs (s, r) = (.error e, (access.2, r))) := by
  have hm : (min16 r.remain (lenU16 bs.length)).toNat = min (r.tail - r.ptr).toNat (min bs.length 65535) := by
    rw [min16_toNat, lenU16_toNat, Ptrs.remain]
  constructor
  · intro hn
    have : min16 r.remain (lenU16 bs.length) ≠ lenU16 bs.length := by
      intro e; rw [e, lenU16_toNat] at hm; omega
    simp only [writerOps, writerWriteAll]
    rw [if_pos this]; rfl
  · intro hn
    have : min16 r.remain (lenU16 bs.length) = lenU16 bs.length := by
      apply u16_ext; rw [hm, lenU16_toNat]; omega
    have hl : lenU16 bs.length = UInt16.ofNat bs.length := by unfold lenU16; rw [if_pos (by omega)]
    intro access
    simp only [writerOps, writerWriteAll]
    rw [if_neg (by simp [this]), M.bind_run, this, hl]
    rcases hacc : b.setSnTxBuf r.sn r.ptr bs s with ⟨e | x, s'⟩
    · simp only [access, hacc]
    · simp only [access, hacc]; rfl

example : ((0x0008 : UInt16) - 0xFFFC).toNat = 12 ∧ 12 < 65535 := by decide

end Verif.Thm
