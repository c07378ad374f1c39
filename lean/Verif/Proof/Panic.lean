import Verif.Spec.Panic
import Verif.Proof.ClosedProg
import Verif.Proof.Seek
/-!
# Reasoning about panics
-/
namespace Verif
open Hl
open Spec (NoPanic Device RxLimit StatusUdp StatusTcp PortUnique seekTarget)

/-- The errors that `Error::map_w5500` and the other conversions of errors take. -/
def Fine (e : Err) : Prop := e ≠ .panic ∧ e ≠ .wouldBlock

/-- All errors of a call are fine, and its results satisfy `Q`. -/
def FineM {σ α : Type} (Q : α → Prop) (m : M σ α) : Prop :=
  ∀ s, (∀ e, (m s).1 = .error e → Fine e) ∧ ∀ a, (m s).1 = .ok a → Q a

section
variable {σ α β : Type} {b : Bus σ} {Q : α → Prop} {Q' : β → Prop}

theorem FineM.pure {a : α} (h : Q a) : FineM Q (Pure.pure a : M σ α) :=
  fun _ => ⟨(fun _ h => nomatch h), fun _ e => by injection e with e; rw [← e]; exact h⟩

theorem FineM.throw {e : Err} (h : Fine e) : FineM Q (M.throw e : M σ α) :=
  fun _ => ⟨fun _ h' => by injection h' with h'; rw [← h']; exact h, fun _ h => nomatch h⟩

theorem FineM.bind {m : M σ α} {f : α → M σ β} (hm : FineM Q m) (hf : ∀ a, Q a → FineM Q' (f a)) : FineM Q' (m >>= f) := by
  intro s
  rw [M.bind_run]
  have := hm s
  rcases e : m s with ⟨x | a, s'⟩
  · rw [e] at this; exact ⟨fun e' h => by injection h with h; rw [← h]; exact this.1 x rfl, fun _ h => nomatch h⟩
  · rw [e] at this; exact hf a (this.2 a rfl) s'

theorem FineM.mono {m : M σ α} {Q' : α → Prop} (hm : FineM Q m) (h : ∀ a, Q a → Q' a) : FineM Q' m :=
  fun s => ⟨(hm s).1, fun a e => h a ((hm s).2 a e)⟩

theorem FineM.ite {c : Prop} [Decidable c] {m m' : M σ α} (h : FineM Q m) (h' : FineM Q m') : FineM Q (if c then m else m') := by
  split <;> assumption

theorem FineM.noPanic {m : M σ α} (h : FineM Q m) : NoPanic m := fun s e => ((h s).1 _ e).1 rfl

theorem NoPanic.pure (a : α) : NoPanic (Pure.pure a : M σ α) := fun _ h => nomatch h
theorem NoPanic.throw {e : Err} (h : e ≠ .panic) : NoPanic (M.throw e : M σ α) :=
  fun _ h' => by injection h' with h'; exact h h'
theorem NoPanic.bind {m : M σ α} {f : α → M σ β} (hm : NoPanic m) (hf : ∀ a, NoPanic (f a)) : NoPanic (m >>= f) := by
  intro s
  rw [M.bind_run]
  have := hm s
  rcases e : m s with ⟨x | a, s'⟩
  · rw [e] at this; intro h; injection h with h; exact this (by rw [h])
  · exact hf a s'
theorem NoPanic.bindQ {m : M σ α} {f : α → M σ β} (hm : NoPanic m) (hq : ∀ s a, (m s).1 = .ok a → Q a)
    (hf : ∀ a, Q a → NoPanic (f a)) : NoPanic (m >>= f) := by
  intro s
  rw [M.bind_run]
  have := hm s
  have hq := hq s
  rcases e : m s with ⟨x | a, s'⟩
  · rw [e] at this; intro h; injection h with h; exact this (by rw [h])
  · rw [e] at hq; exact hf a (hq a rfl) s'

end

/-- The tactic for sequences of register accesses. -/
macro "fine_tac" : tactic => `(tactic|
  repeat (first
    | exact FineM.pure trivial
    | (apply FineM.throw; exact ⟨by nofun, by nofun⟩)
    | assumption
    | apply_assumption
    | (refine FineM.bind (Q := fun _ => True) ?_ (fun _ _ => ?_))
    | (refine FineM.ite ?_ ?_)))

section
variable {σ : Type} {b : Bus σ} (hb : Device b)
include hb

/-- Nothing is said about the result. -/
abbrev Ok {σ α : Type} (m : M σ α) : Prop := FineM (fun _ => True) m

theorem fine_read (a : UInt16) (blk : UInt8) (n : Nat) : Ok (b.read a blk n) :=
  fun s => ⟨fun e h => by obtain ⟨x, rfl⟩ := hb.read a blk n s e h; exact ⟨by nofun, by nofun⟩, fun _ _ => trivial⟩
theorem fine_write (a : UInt16) (blk : UInt8) (bs : Bytes) : Ok (b.write a blk bs) :=
  fun s => ⟨fun e h => by obtain ⟨x, rfl⟩ := hb.write a blk bs s e h; exact ⟨by nofun, by nofun⟩, fun _ _ => trivial⟩

theorem fine_snPort (s : Sn) : Ok (b.snPort s) := by have := fine_read hb; unfold Bus.snPort; fine_tac
theorem fine_snSr (s : Sn) : Ok (b.snSr s) := by have := fine_read hb; unfold Bus.snSr; fine_tac
theorem fine_snIr (s : Sn) : Ok (b.snIr s) := by have := fine_read hb; unfold Bus.snIr; fine_tac
theorem fine_simr : Ok b.simr := by have := fine_read hb; unfold Bus.simr; fine_tac
theorem fine_phycfgr : Ok b.phycfgr := by have := fine_read hb; unfold Bus.phycfgr; fine_tac
theorem fine_snRxRsr (s : Sn) : Ok (b.snRxRsr s) := by have := fine_read hb; unfold Bus.snRxRsr; fine_tac
theorem fine_snRxRd (s : Sn) : Ok (b.snRxRd s) := by have := fine_read hb; unfold Bus.snRxRd; fine_tac
theorem fine_snTxPtrs (s : Sn) : Ok (b.snTxPtrs s) := by have := fine_read hb; unfold Bus.snTxPtrs; fine_tac
theorem fine_snRxbufSize (s : Sn) : Ok (b.snRxbufSize s) := by have := fine_read hb; unfold Bus.snRxbufSize; fine_tac
theorem fine_setSnCr (s : Sn) (v) : Ok (b.setSnCr s v) := by have := fine_write hb; unfold Bus.setSnCr; fine_tac
theorem fine_setSnMr (s : Sn) (v) : Ok (b.setSnMr s v) := by have := fine_write hb; unfold Bus.setSnMr; fine_tac
theorem fine_setSnIr (s : Sn) (v) : Ok (b.setSnIr s v) := by have := fine_write hb; unfold Bus.setSnIr; fine_tac
theorem fine_setSnImr (s : Sn) (v) : Ok (b.setSnImr s v) := by have := fine_write hb; unfold Bus.setSnImr; fine_tac
theorem fine_setSimr (v) : Ok (b.setSimr v) := by have := fine_write hb; unfold Bus.setSimr; fine_tac
theorem fine_setSipr (v) : Ok (b.setSipr v) := by have := fine_write hb; unfold Bus.setSipr; fine_tac
theorem fine_setGar (v) : Ok (b.setGar v) := by have := fine_write hb; unfold Bus.setGar; fine_tac
theorem fine_setSubr (v) : Ok (b.setSubr v) := by have := fine_write hb; unfold Bus.setSubr; fine_tac
theorem fine_setSnPort (s : Sn) (v) : Ok (b.setSnPort s v) := by have := fine_write hb; unfold Bus.setSnPort; fine_tac
theorem fine_setSnDest (s : Sn) (v) : Ok (b.setSnDest s v) := by have := fine_write hb; unfold Bus.setSnDest; fine_tac
theorem fine_setSnDhar (s : Sn) (v) : Ok (b.setSnDhar s v) := by have := fine_write hb; unfold Bus.setSnDhar; fine_tac
theorem fine_setSnTtl (s : Sn) (v) : Ok (b.setSnTtl s v) := by have := fine_write hb; unfold Bus.setSnTtl; fine_tac
theorem fine_setSnRxRd (s : Sn) (v) : Ok (b.setSnRxRd s v) := by have := fine_write hb; unfold Bus.setSnRxRd; fine_tac
theorem fine_setSnTxWr (s : Sn) (v) : Ok (b.setSnTxWr s v) := by have := fine_write hb; unfold Bus.setSnTxWr; fine_tac
theorem fine_setSnTxBuf (s : Sn) (p v) : Ok (b.setSnTxBuf s p v) := by have := fine_write hb; unfold Bus.setSnTxBuf; fine_tac
/-- As many bytes are read as were asked for. -/
theorem fine_snRxBuf (s : Sn) (p : UInt16) (n : Nat) : FineM (fun x => x.length = n) (b.snRxBuf s p n) := by
  unfold Bus.snRxBuf
  refine FineM.bind (fine_read hb _ _ _) (fun v _ => FineM.pure ?_)
  simp

end

/-! ## Programs on a reader -/

/-- A program on a reader of `L` bytes, whatever the bytes are and whichever calls fail with an error of the bus: at the end
the result and the position satisfy `Q`, or the error is fine.  The second argument is the position. -/
def RSafe {α : Type} (L : Nat) (Q : α → Nat → Prop) : RProg α → Nat → Prop
  | .ret (.ok a), p => Q a p
  | .ret (.error e), _ => Fine e
  | .read n k, p => (∀ x, x.length = min n (L - p) → RSafe L Q (k (.ok x)) (p + x.length)) ∧
      ∀ e, Fine e → RSafe L Q (k (.error e)) p
  | .readExact n k, p => (∀ x, x.length = n → p + min n 65535 ≤ L → RSafe L Q (k (.ok x)) (p + min n 65535)) ∧
      ∀ e, Fine e → RSafe L Q (k (.error e)) p
  | .seek pos k, p => (∀ q, q ≤ L → (q : Int) = seekTarget L p pos → RSafe L Q (k (.ok ())) q) ∧
      ∀ e, Fine e → RSafe L Q (k (.error e)) p
  | .rewind k, _ => RSafe L Q k 0
  | .streamLen k, p => RSafe L Q (k (UInt16.ofNat L)) p
  | .streamPosition k, p => RSafe L Q (k (UInt16.ofNat p)) p
  | .remain k, p => RSafe L Q (k (UInt16.ofNat (L - p))) p

/-- The reader has `L` bytes and is at position `p`. -/
def At (r : Ptrs) (L p : Nat) : Prop := r.streamLen.toNat = L ∧ r.streamPosition.toNat = p ∧ p ≤ L

section
variable {σ α β : Type} {L : Nat}

theorem RSafe.bind {Q : α → Nat → Prop} {Q' : β → Nat → Prop} {f : α → RProg β} (hf : ∀ a q, Q a q → RSafe L Q' (f a) q)
    (m : RProg α) : ∀ p, RSafe L Q m p → RSafe L Q' (m >>= f) p := by
  induction m with
  | ret r =>
    intro p h
    rcases r with e | a
    · exact h
    · exact hf a p h
  | read n k ih => intro p h; exact ⟨fun x hx => ih _ _ (h.1 x hx), fun e he => ih _ _ (h.2 e he)⟩
  | readExact n k ih => intro p h; exact ⟨fun x hx hl => ih _ _ (h.1 x hx hl), fun e he => ih _ _ (h.2 e he)⟩
  | seek pos k ih => intro p h; exact ⟨fun q hq ht => ih _ _ (h.1 q hq ht), fun e he => ih _ _ (h.2 e he)⟩
  | rewind k ih => intro p h; exact ih _ h
  | streamLen k ih => intro p h; exact ih _ _ h
  | streamPosition k ih => intro p h; exact ih _ _ h
  | remain k ih => intro p h; exact ih _ _ h

theorem RSafe.doRead {Q : Bytes → Nat → Prop} {n p : Nat} (h : ∀ x, x.length = min n (L - p) → Q x (p + x.length)) :
    RSafe L Q (RProg.doRead n) p := ⟨h, fun _ he => he⟩
theorem RSafe.doReadExact {Q : Bytes → Nat → Prop} {n p : Nat}
    (h : ∀ x, x.length = n → p + min n 65535 ≤ L → Q x (p + min n 65535)) :
    RSafe L Q (RProg.doReadExact n) p := ⟨h, fun _ he => he⟩
theorem RSafe.doSeek {Q : Unit → Nat → Prop} {pos : SeekFrom} {p : Nat}
    (h : ∀ q, q ≤ L → (q : Int) = seekTarget L p pos → Q () q) : RSafe L Q (RProg.doSeek pos) p := ⟨h, fun _ he => he⟩
theorem RSafe.doStreamPosition {Q : UInt16 → Nat → Prop} {p : Nat} (h : Q (UInt16.ofNat p) p) :
    RSafe L Q RProg.doStreamPosition p := h
theorem RSafe.doRemain {Q : UInt16 → Nat → Prop} {p : Nat} (h : Q (UInt16.ofNat (L - p)) p) :
    RSafe L Q RProg.doRemain p := h
theorem RSafe.ret {Q : α → Nat → Prop} {a : α} {p : Nat} (h : Q a p) : RSafe L Q (Pure.pure a) p := h
theorem RSafe.throw {Q : α → Nat → Prop} {e : Err} {p : Nat} (h : Fine e) : RSafe L Q (RProg.throw e : RProg α) p := h

/-- What the reader of a TCP socket does is among what `RSafe` allows. -/
theorem rsafe_run {b : Bus σ} (hb : Device b) {Q : α → Nat → Prop} (prog : RProg α) : ∀ s r p, At r L p → RSafe L Q prog p →
    (∀ e, (prog.run (tcpReaderOps b) (s, r)).1 = .error e → Fine e ∧ ∃ q, At (prog.run (tcpReaderOps b) (s, r)).2.2 L q) ∧
    ∀ a, (prog.run (tcpReaderOps b) (s, r)).1 = .ok a → ∃ q, Q a q ∧ At (prog.run (tcpReaderOps b) (s, r)).2.2 L q := by
  have hrem : ∀ {r : Ptrs} {p : Nat}, At r L p → r.remain.toNat = L - p := by
    intro r p h
    obtain ⟨h1, h2, h3⟩ := h
    simp only [Ptrs.streamLen, Ptrs.streamPosition, Ptrs.remain, u16_sub_toNat] at *
    have := u16_lt r.ptr; have := u16_lt r.tail; have := u16_lt r.head
    omega
  have hadv : ∀ {r : Ptrs} {p : Nat} (k : UInt16), At r L p → p + k.toNat ≤ L → At { r with ptr := r.ptr + k } L (p + k.toNat) := by
    intro r p k h hk
    obtain ⟨h1, h2, h3⟩ := h
    simp only [At, Ptrs.streamLen, Ptrs.streamPosition, u16_sub_toNat, UInt16.toNat_add] at *
    have := u16_lt r.ptr; have := u16_lt r.tail; have := u16_lt r.head
    refine ⟨h1, ?_, hk⟩
    omega
  have hL : ∀ {r : Ptrs} {p : Nat}, At r L p → L < 65536 := by
    intro r p h; have := u16_lt r.streamLen; rw [h.1] at this; exact this
  induction prog with
  | ret x =>
    intro s r p ha h
    rcases x with e | a
    · exact ⟨fun e' h' => by injection h' with h'; rw [← h']; exact ⟨h, p, ha⟩, (fun _ h => nomatch h)⟩
    · exact ⟨(fun _ h => nomatch h), fun a' h' => by injection h' with h'; rw [← h']; exact ⟨p, h, ha⟩⟩
  | read n k ih =>
    intro s r p ha h
    simp only [RProg.run]
    have hx : (∀ e, ((tcpReaderOps b).read n (s, r)).1 = .error e → Fine e ∧ At ((tcpReaderOps b).read n (s, r)).2.2 L p) ∧
        (∀ x, ((tcpReaderOps b).read n (s, r)).1 = .ok x → x.length = min n (L - p) ∧
          At ((tcpReaderOps b).read n (s, r)).2.2 L (p + x.length)) := by
      simp only [tcpReaderOps, tcpReaderRead]
      have hm : (min16 r.remain (lenU16 n)).toNat = min n (L - p) := by
        rw [min16_toNat, lenU16_toNat, hrem ha]; have := hL ha; omega
      by_cases hz : min16 r.remain (lenU16 n) ≠ 0
      · rw [if_pos hz, M.bind_run]
        have hbuf := fine_snRxBuf hb r.sn r.ptr (min16 r.remain (lenU16 n)).toNat s
        rcases e : b.snRxBuf r.sn r.ptr (min16 r.remain (lenU16 n)).toNat s with ⟨x | x, s'⟩
        · rw [e] at hbuf
          exact ⟨fun e' h' => by injection h' with h'; rw [← h']; exact ⟨hbuf.1 x rfl, ha⟩, (fun _ h => nomatch h)⟩
        · rw [e] at hbuf
          have hlen := hbuf.2 x rfl
          refine ⟨(fun _ h => nomatch h), fun x' h' => ?_⟩
          injection h' with h'
          rw [← h', hlen]
          refine ⟨hm, hadv _ ha ?_⟩
          rw [hm]; have := ha.2.2; omega
      · rw [if_neg hz]
        have : (min16 r.remain (lenU16 n)).toNat = 0 := by
          rw [Classical.not_not] at hz; rw [hz]; rfl
        refine ⟨(fun _ h => nomatch h), fun x' h' => ?_⟩
        injection h' with h'
        rw [← h']
        exact ⟨by rw [List.length_nil]; omega, ha⟩
    rcases e : (tcpReaderOps b).read n (s, r) with ⟨x | x, s', r'⟩
    · rw [e] at hx
      exact ih _ _ _ p (hx.1 x rfl).2 (h.2 x (hx.1 x rfl).1)
    · rw [e] at hx
      exact ih _ _ _ _ (hx.2 x rfl).2 (h.1 x (hx.2 x rfl).1)
  | readExact n k ih =>
    intro s r p ha h
    simp only [RProg.run]
    have hx : (∀ e, ((tcpReaderOps b).readExact n (s, r)).1 = .error e → Fine e ∧ At ((tcpReaderOps b).readExact n (s, r)).2.2 L p) ∧
        (∀ x, ((tcpReaderOps b).readExact n (s, r)).1 = .ok x → x.length = n ∧ p + min n 65535 ≤ L ∧
          At ((tcpReaderOps b).readExact n (s, r)).2.2 L (p + min n 65535)) := by
      simp only [tcpReaderOps, tcpReaderReadExact]
      by_cases hz : min16 r.remain (lenU16 n) ≠ lenU16 n
      · rw [if_pos hz]
        exact ⟨fun e' h' => by injection h' with h'; rw [← h']; exact ⟨⟨by nofun, by nofun⟩, ha⟩, (fun _ h => nomatch h)⟩
      · rw [if_neg hz, M.bind_run]
        rw [Classical.not_not] at hz
        have hm : p + min n 65535 ≤ L := by
          have h1 := congrArg UInt16.toNat hz
          rw [min16_toNat, lenU16_toNat, hrem ha] at h1
          have := ha.2.2; omega
        have hbuf := fine_snRxBuf hb r.sn r.ptr n s
        rcases e : b.snRxBuf r.sn r.ptr n s with ⟨x | x, s'⟩
        · rw [e] at hbuf
          exact ⟨fun e' h' => by injection h' with h'; rw [← h']; exact ⟨hbuf.1 x rfl, ha⟩, (fun _ h => nomatch h)⟩
        · rw [e] at hbuf
          have hlen := hbuf.2 x rfl
          refine ⟨(fun _ h => nomatch h), fun x' h' => ?_⟩
          injection h' with h'
          rw [← h']
          refine ⟨hlen, hm, ?_⟩
          have := hadv (lenU16 n) ha (by rw [lenU16_toNat]; exact hm)
          rw [lenU16_toNat] at this
          rw [hz]; exact this
    rcases e : (tcpReaderOps b).readExact n (s, r) with ⟨x | x, s', r'⟩
    · rw [e] at hx
      exact ih _ _ _ p (hx.1 x rfl).2 (h.2 x (hx.1 x rfl).1)
    · rw [e] at hx
      exact ih _ _ _ _ (hx.2 x rfl).2.2 (h.1 x (hx.2 x rfl).1 (hx.2 x rfl).2.1)
  | seek pos k ih =>
    intro s r p ha h
    simp only [RProg.run]
    have hsp := newPtr_spec pos r.ptr r.head r.tail (by
      have := ha.2.2; rw [← ha.2.1, ← ha.1] at this; exact this)
    have e1 : (r.tail - r.head).toNat = L := ha.1
    have e2 : (r.ptr - r.head).toNat = p := ha.2.1
    simp only [e1, e2] at hsp
    by_cases ht : 0 ≤ seekTarget L p pos ∧ seekTarget L p pos ≤ L
    · obtain ⟨q, hq, hq'⟩ := hsp.1 ht
      have : (tcpReaderOps b).seek pos (s, r) = (.ok (), (s, { r with ptr := q })) := by
        simp only [tcpReaderOps, Ptrs.seek, hq]
      rw [this]
      refine ih _ _ _ (q - r.head).toNat ⟨ha.1, rfl, ?_⟩ (h.1 _ ?_ hq') <;> omega
    · have : (tcpReaderOps b).seek pos (s, r) = (.error .unexpectedEof, (s, r)) := by
        simp only [tcpReaderOps, Ptrs.seek, hsp.2 ht]
      rw [this]
      exact ih _ _ _ p ha (h.2 _ ⟨by nofun, by nofun⟩)
  | rewind k ih =>
    intro s r p ha h
    refine ih s r.rewind 0 ⟨ha.1, ?_, Nat.zero_le _⟩ h
    simp [Ptrs.rewind, Ptrs.streamPosition]
  | streamLen k ih =>
    intro s r p ha h
    refine ih _ s r p ha ?_
    have : r.streamLen = UInt16.ofNat L := u16_ext (by rw [ha.1, UInt16.toNat_ofNat']; have := hL ha; omega)
    rw [this]; exact h
  | streamPosition k ih =>
    intro s r p ha h
    refine ih _ s r p ha ?_
    have : r.streamPosition = UInt16.ofNat p := u16_ext (by rw [ha.2.1, UInt16.toNat_ofNat']; have := hL ha; have := ha.2.2; omega)
    rw [this]; exact h
  | remain k ih =>
    intro s r p ha h
    refine ih _ s r p ha ?_
    have : r.remain = UInt16.ofNat (L - p) := u16_ext (by rw [hrem ha, UInt16.toNat_ofNat']; have := hL ha; omega)
    rw [this]; exact h

theorem fine_onTcpReader {b : Bus σ} (hb : Device b) {Q : α → Nat → Prop} {prog : RProg α} {r : Ptrs} {p : Nat} (ha : At r L p)
    (h : RSafe L Q prog p) : FineM (fun x => ∃ q, Q x.1 q ∧ At x.2 L q) (onTcpReader b r prog) := by
  intro s
  have hr := rsafe_run hb prog s r p ha h
  unfold onTcpReader
  rcases e : prog.run (tcpReaderOps b) (s, r) with ⟨x | x, s', r'⟩
  · rw [e] at hr
    exact ⟨fun e' h' => by injection h' with h'; rw [← h']; exact (hr.1 x rfl).1, (fun _ h => nomatch h)⟩
  · rw [e] at hr
    exact ⟨(fun _ h => nomatch h), fun e' h' => by injection h' with h'; rw [← h']; exact hr.2 x rfl⟩

theorem fine_onUdpReader {b : Bus σ} (hb : Device b) {Q : α → Nat → Prop} {prog : RProg α} {u : UdpReader} {p : Nat}
    (ha : At u.inner L p) (h : RSafe L Q prog p) : FineM (fun x => ∃ q, Q x.1 q ∧ At x.2.inner L q) (onUdpReader b u prog) := by
  intro s
  have hr := rsafe_run hb prog s u.inner p ha h
  unfold onUdpReader
  rw [udpReader_run_any]
  rcases e : prog.run (tcpReaderOps b) (s, u.inner) with ⟨x | x, s', r'⟩
  · rw [e] at hr
    exact ⟨fun e' h' => by injection h' with h'; rw [← h']; exact (hr.1 x rfl).1, (fun _ h => nomatch h)⟩
  · rw [e] at hr
    exact ⟨(fun _ h => nomatch h), fun e' h' => by injection h' with h'; rw [← h']; exact hr.2 x rfl⟩

end

/-! ## Programs on a writer -/

/-- A program on a writer, whichever calls fail: its error is fine. -/
def WSafe {α : Type} : WProg α → Prop
  | .ret r => ∀ e, r = .error e → Fine e
  | .write _ k => ∀ r, (∀ e, r = .error e → Fine e) → WSafe (k r)
  | .writeAll _ k => ∀ r, (∀ e, r = .error e → Fine e) → WSafe (k r)
  | .seek _ k => ∀ r, (∀ e, r = .error e → Fine e) → WSafe (k r)
  | .rewind k => WSafe k
  | .streamLen k => ∀ n, WSafe (k n)
  | .streamPosition k => ∀ n, WSafe (k n)
  | .remain k => ∀ n, WSafe (k n)

section
variable {σ α β : Type}

theorem WSafe.bind {f : α → WProg β} (hf : ∀ a, WSafe (f a)) (m : WProg α) : WSafe m → WSafe (m >>= f) := by
  induction m with
  | ret r =>
    intro h
    rcases r with e | a
    · exact fun e' h' => by injection h' with h'; rw [← h']; exact h e rfl
    · exact hf a
  | write n k ih => intro h r hr; exact ih _ (h r hr)
  | writeAll n k ih => intro h r hr; exact ih _ (h r hr)
  | seek pos k ih => intro h r hr; exact ih _ (h r hr)
  | rewind k ih => intro h; exact ih h
  | streamLen k ih => intro h n; exact ih _ (h n)
  | streamPosition k ih => intro h n; exact ih _ (h n)
  | remain k ih => intro h n; exact ih _ (h n)

theorem WSafe.doWriteAll (bs : Bytes) : WSafe (WProg.doWriteAll bs) := fun _ h => h
theorem WSafe.doSeek (pos : SeekFrom) : WSafe (WProg.doSeek pos) := fun _ h => h
theorem WSafe.doRewind : WSafe WProg.doRewind := fun _ h => nomatch h
theorem WSafe.doStreamPosition : WSafe WProg.doStreamPosition := fun _ _ h => nomatch h
theorem WSafe.doRemain : WSafe WProg.doRemain := fun _ _ h => nomatch h
theorem WSafe.pure (a : α) : WSafe (Pure.pure a : WProg α) := fun _ h => nomatch h
theorem WSafe.throw {e : Err} (h : Fine e) : WSafe (WProg.throw e : WProg α) :=
  fun e' h' => by injection h' with h'; rw [← h']; exact h

theorem fine_writerWrite {b : Bus σ} (hb : Device b) (r : Ptrs) (bs : Bytes) : Ok (writerWrite b r bs) := by
  have := fine_setSnTxBuf hb; unfold writerWrite; fine_tac
theorem fine_writerWriteAll {b : Bus σ} (hb : Device b) (r : Ptrs) (bs : Bytes) : Ok (writerWriteAll b r bs) := by
  have := fine_setSnTxBuf hb; unfold writerWriteAll; fine_tac

theorem wsafe_run {b : Bus σ} (hb : Device b) (prog : WProg α) : ∀ s, WSafe prog →
    ∀ e, (prog.run (writerOps b) s).1 = .error e → Fine e := by
  induction prog with
  | ret x => intro s h; exact h
  | write bs k ih =>
    intro ⟨s, r⟩ h
    refine ih _ _ (h _ ?_)
    simp only [writerOps]
    have := fine_writerWrite hb r bs s
    rcases e : writerWrite b r bs s with ⟨x | x, s'⟩
    · rw [e] at this; exact fun e' h' => by injection h' with h'; rw [← h']; exact this.1 x rfl
    · exact fun _ h => nomatch h
  | writeAll bs k ih =>
    intro ⟨s, r⟩ h
    refine ih _ _ (h _ ?_)
    simp only [writerOps]
    have := fine_writerWriteAll hb r bs s
    rcases e : writerWriteAll b r bs s with ⟨x | x, s'⟩
    · rw [e] at this; exact fun e' h' => by injection h' with h'; rw [← h']; exact this.1 x rfl
    · exact fun _ h => nomatch h
  | seek pos k ih =>
    intro ⟨s, r⟩ h
    refine ih _ _ (h _ ?_)
    simp only [writerOps, Ptrs.seek]
    rcases pos.newPtr r.ptr r.head r.tail with _ | x
    · exact fun e' h' => by injection h' with h'; rw [← h']; exact ⟨by nofun, by nofun⟩
    · exact fun _ h => nomatch h
  | rewind k ih => intro s h; exact ih _ h
  | streamLen k ih => intro s h; exact ih _ _ (h _)
  | streamPosition k ih => intro s h; exact ih _ _ (h _)
  | remain k ih => intro s h; exact ih _ _ (h _)

theorem fine_onWriter {b : Bus σ} (hb : Device b) {prog : WProg α} (r : Ptrs) (h : WSafe prog) : Ok (onWriter b r prog) := by
  intro s
  have hr := wsafe_run hb prog (s, r) h
  unfold onWriter
  rcases e : prog.run (writerOps b) (s, r) with ⟨x | x, s', r'⟩
  · rw [e] at hr
    exact ⟨fun e' h' => by injection h' with h'; rw [← h']; exact hr x rfl, (fun _ h => nomatch h)⟩
  · exact ⟨(fun _ h => nomatch h), fun _ _ => trivial⟩

end

/-! ## The functions for sockets -/

section
variable {σ : Type} {b : Bus σ} (hb : Device b)
include hb

theorem fine_tcpReaderDone (r : Ptrs) : Ok (tcpReaderDone b r) := by
  have := fine_setSnRxRd hb; have := fine_setSnCr hb; unfold tcpReaderDone; fine_tac
theorem fine_udpReaderDone (r : UdpReader) : Ok (udpReaderDone b r) := by
  have := fine_setSnRxRd hb; have := fine_setSnCr hb; unfold udpReaderDone; fine_tac
theorem fine_writerSend (r : Ptrs) : Ok (writerSend b r) := by
  have := fine_setSnTxWr hb; have := fine_setSnCr hb; unfold writerSend; fine_tac
theorem fine_socketWriter (sn : Sn) : Ok (socketWriter b sn) := by
  have := fine_snTxPtrs hb; unfold socketWriter; fine_tac
theorem fine_close (sn : Sn) : Ok (Hl.close b sn) := fine_setSnCr hb sn _
theorem fine_waitStatus (sn : Sn) (st : SocketStatus) (fuel : Nat) : Ok (waitStatus b sn st fuel) := by
  have := fine_snSr hb
  induction fuel with
  | zero => exact FineM.throw ⟨by nofun, by nofun⟩
  | succ n ih => unfold waitStatus; fine_tac
theorem fine_portIsUnique (sn : Sn) (port : UInt16) : Ok (portIsUnique b sn port) := by
  have := fine_snPort hb; have := fine_snSr hb
  have h : ∀ l, Ok (portIsUniqueLoop b port l) := by
    intro l
    induction l with
    | nil => unfold portIsUniqueLoop; exact FineM.pure trivial
    | cons s l ih => unfold portIsUniqueLoop; fine_tac
  exact h _

omit hb in
theorem fine_debugAssert {dbg : Bool} {c : M σ Bool} (hc : Ok c) (h : dbg = true → ∀ s v, (c s).1 = .ok v → v = true) :
    Ok (debugAssert dbg c) := by
  unfold debugAssert
  cases dbg
  · exact FineM.pure trivial
  · refine FineM.bind (Q := fun v => v = true) (fun s => ⟨(hc s).1, h rfl s⟩) (fun v hv => ?_)
    rw [hv]; exact FineM.pure trivial

theorem fine_srIsUdp {dbg : Bool} {sn : Sn} (h : dbg = true → StatusUdp b sn) :
    Ok (debugAssert dbg (srIsUdp b sn)) := by
  have hs := fine_snSr hb
  refine fine_debugAssert (by unfold srIsUdp; fine_tac) (fun hd s v hv => ?_)
  unfold srIsUdp at hv
  rw [M.bind_run] at hv
  have := h hd s
  rcases e : b.snSr sn s with ⟨x | x, s'⟩
  · rw [e] at hv; exact nomatch hv
  · rw [e] at hv this
    injection hv with hv
    rw [← hv, this x rfl]; rfl

theorem fine_notUdp {dbg : Bool} {sn : Sn} (h : dbg = true → StatusTcp b sn) :
    Ok (debugAssert dbg (notUdpInitMacraw b sn)) := by
  have hs := fine_snSr hb
  refine fine_debugAssert (by unfold notUdpInitMacraw; fine_tac) (fun hd s v hv => ?_)
  unfold notUdpInitMacraw at hv
  rw [M.bind_run] at hv
  have := h hd s
  rcases e : b.snSr sn s with ⟨x | x, s'⟩
  · rw [e] at hv; exact nomatch hv
  · rw [e] at hv this
    injection hv with hv
    obtain ⟨h1, h2, h3⟩ := this x rfl
    rw [← hv]
    simp [h1, h2, h3]

theorem fine_udpBind {dbg : Bool} (fuel : Nat) {sn : Sn} {port : UInt16}
    (h : dbg = true → PortUnique b sn port) : Ok (udpBind dbg fuel b sn port) := by
  have := fine_debugAssert (fine_portIsUnique hb sn port) h
  have := fine_setSnCr hb; have := fine_waitStatus hb; have := fine_setSnPort hb; have := fine_setSnMr hb
  unfold udpBind; fine_tac

theorem fine_tcpConnect {dbg : Bool} (fuel : Nat) {sn : Sn} {port : UInt16} (addr : SockAddr)
    (h : dbg = true → PortUnique b sn port) : Ok (tcpConnect dbg fuel b sn port addr) := by
  have := fine_debugAssert (fine_portIsUnique hb sn port) h
  have := fine_setSnCr hb; have := fine_waitStatus hb; have := fine_setSnPort hb; have := fine_setSnMr hb; have := fine_setSnDest hb
  unfold tcpConnect; fine_tac

theorem fine_udpWriterSendTo {dbg : Bool} {r : Ptrs} (addr : SockAddr)
    (h : dbg = true → StatusUdp b r.sn) : Ok (udpWriterSendTo dbg b r addr) := by
  have := fine_srIsUdp hb h; have := fine_setSnDest hb; have := fine_writerSend hb
  unfold udpWriterSendTo; fine_tac

/-- The reader of a datagram, if there is one. -/
theorem udpReader_at {dbg : Bool} {sn : Sn} (h : dbg = true → StatusUdp b sn) (s : σ) :
    (udpReader dbg b sn s).1 ≠ .error .panic ∧
    ∀ u, (udpReader dbg b sn s).1 = .ok u → ∃ L, At u.inner L 0 ∧ ∃ s' n, (b.snRxRsr sn s').1 = .ok n ∧ L ≤ n.toNat := by
  have h0 := fine_srIsUdp hb h
  have h1 := fine_snRxRsr hb sn
  have h2 := fine_snRxRd hb sn
  unfold udpReader
  rw [M.bind_run]
  have h0 := h0 s
  rcases e0 : debugAssert dbg (srIsUdp b sn) s with ⟨x | x, s0⟩
  · rw [e0] at h0; exact ⟨fun h' => by injection h' with h'; exact (h0.1 x rfl).1 h', (fun _ h => nomatch h)⟩
  · dsimp only
    rw [M.bind_run]
    have h1 := h1 s0
    rcases e1 : b.snRxRsr sn s0 with ⟨y | rsr, s1⟩
    · rw [e1] at h1; exact ⟨fun h' => by injection h' with h'; exact (h1.1 y rfl).1 h', (fun _ h => nomatch h)⟩
    · dsimp only
      by_cases hlt : rsr < UdpHeader.LEN
      · rw [if_pos hlt]; exact ⟨(fun h => nomatch h), (fun _ h => nomatch h)⟩
      · rw [if_neg hlt, M.bind_run]
        have h2 := h2 s1
        rcases e2 : b.snRxRd sn s1 with ⟨y | rd, s2⟩
        · rw [e2] at h2; exact ⟨fun h' => by injection h' with h'; exact (h2.1 y rfl).1 h', (fun _ h => nomatch h)⟩
        · dsimp only
          rw [M.bind_run]
          have h3 := fine_snRxBuf hb sn rd 8 s2
          rcases e3 : b.snRxBuf sn rd 8 s2 with ⟨y | hd, s3⟩
          · rw [e3] at h3; exact ⟨fun h' => by injection h' with h'; exact (h3.1 y rfl).1 h', (fun _ h => nomatch h)⟩
          · dsimp only
            refine ⟨(fun h => nomatch h), fun u hu => ?_⟩
            injection hu with hu
            rw [← hu]
            refine ⟨(min16 (UdpHeader.deser hd).len (rsr - UdpHeader.LEN)).toNat, ⟨?_, ?_, Nat.zero_le _⟩, s0, rsr, by rw [e1], ?_⟩
            · simp only [Ptrs.streamLen]
              rw [u16_sub_toNat, UInt16.toNat_add]
              have := u16_lt (rd + UdpHeader.LEN); have := u16_lt (min16 (UdpHeader.deser hd).len (rsr - UdpHeader.LEN))
              omega
            · simp [Ptrs.streamPosition]
            · rw [min16_toNat, u16_sub_toNat]
              rw [UInt16.lt_iff_toNat_lt] at hlt
              have : UdpHeader.LEN.toNat = 8 := rfl
              have := u16_lt rsr
              omega

/-- The reader of the bytes received, if there are any. -/
theorem tcpReader_at {dbg : Bool} {sn : Sn}
    (h : dbg = true → StatusTcp b sn) (s : σ) :
    (tcpReader dbg b sn s).1 ≠ .error .panic ∧ ∀ u, (tcpReader dbg b sn s).1 = .ok u → ∃ L, At u L 0 := by
  have h0 := fine_notUdp hb h
  have h1 := fine_snRxRsr hb sn
  have h2 := fine_snRxRd hb sn
  unfold tcpReader
  rw [M.bind_run]
  have h0 := h0 s
  rcases e0 : debugAssert dbg (notUdpInitMacraw b sn) s with ⟨x | x, s0⟩
  · rw [e0] at h0; exact ⟨fun h' => by injection h' with h'; exact (h0.1 x rfl).1 h', (fun _ h => nomatch h)⟩
  · dsimp only
    rw [M.bind_run]
    have h1 := h1 s0
    rcases e1 : b.snRxRsr sn s0 with ⟨y | rsr, s1⟩
    · rw [e1] at h1; exact ⟨fun h' => by injection h' with h'; exact (h1.1 y rfl).1 h', (fun _ h => nomatch h)⟩
    · dsimp only
      by_cases hlt : rsr = 0
      · rw [if_pos hlt]; exact ⟨(fun h => nomatch h), (fun _ h => nomatch h)⟩
      · rw [if_neg hlt, M.bind_run]
        have h2 := h2 s1
        rcases e2 : b.snRxRd sn s1 with ⟨y | rd, s2⟩
        · rw [e2] at h2; exact ⟨fun h' => by injection h' with h'; exact (h2.1 y rfl).1 h', (fun _ h => nomatch h)⟩
        · refine ⟨(fun h => nomatch h), fun u hu => ?_⟩
          injection hu with hu
          rw [← hu]
          refine ⟨rsr.toNat, ?_, ?_, Nat.zero_le _⟩
          · simp only [Ptrs.streamLen]
            rw [u16_sub_toNat, UInt16.toNat_add]
            have := u16_lt rd; have := u16_lt rsr
            omega
          · simp [Ptrs.streamPosition]
end
end Verif
