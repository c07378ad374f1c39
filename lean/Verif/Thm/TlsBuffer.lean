import Verif.Proof.TlsReader
import Verif.Spec.TlsQueue
/-!
# C53: the TLS receive buffer is a queue
-/
namespace Verif.Tls
open Verif Hl Spec

/-- Do an operation to the receive buffer, the way the client does: `extend_from_slice`, `pop_tail`,
`increment_application_data_tail`, and `app_data_reader` with any use of the reader. -/
def Buffer.step (dbg : Bool) (b : Buffer) : QOp → QOut × Buffer
  | .extend src => match b.extendFromSlice dbg src with
    | .ok b' => (.ok, b')
    | .error (.err _) => (.refused, b)
    | .error _ => (.panic, b)
  | .popTail => match b.popTail with
    | some (x, b') => (.byte (some x), b')
    | none => (.byte none, b)
  | .commit n => match b.incrementApplicationDataTail dbg n with
    | .ok b' => (.ok, b')
    | .error _ => (.panic, b)
  | .read p done => match b.appDataReader with
    | .error e => (.got (.error e), b)
    | .ok r =>
      let x := p.run (TlsReader.ops dbg) r
      (.got x.1, if done then { b with head := x.2.done } else b)

/-- The observations of a history. -/
def Buffer.run (dbg : Bool) (b : Buffer) : List QOp → List QOut
  | [] => []
  | op :: rest => (b.step dbg op).1 :: (b.step dbg op).2.run dbg rest

/-- The buffer `b` holds the queue `q`. -/
structure QRel (b : Buffer) (q : Queue) : Prop where
  small : b.buf.length ≤ 32768
  cap : q.cap + 1 = b.buf.length
  head : b.head < b.buf.length
  adTail : b.adTail = (b.head + q.app.length) % b.buf.length
  tail : b.tail = (b.head + q.size) % b.buf.length
  size : q.size ≤ q.cap
  data : ring b.buf b.head q.size = q.app ++ q.pending

theorem QRel.len {b : Buffer} {q : Queue} (h : QRel b q) :
    b.len = if b.tail < b.head then q.size - 1 else q.size := by
  have h1 := h.cap; have h2 := h.head; have h3 := h.size; have h4 := h.tail
  rw [mod_wrap (by omega)] at h4
  unfold Buffer.len Buffer.capacity Buffer.n
  split at h4 <;> split <;> omega

theorem QRel.room {b : Buffer} {q : Queue} (h : QRel b q) (k : Nat) (hk : q.size + k ≤ q.cap) :
    min k b.room.1 ≤ b.buf.length - b.tail ∧ (min k b.room.1 = b.buf.length - b.tail ∨ min k b.room.1 = k) ∧
    k - min k b.room.1 ≤ b.room.2 ∧ b.tail < b.buf.length := by
  have h1 := h.cap; have h2 := h.head; have h3 := h.size; have h4 := h.tail
  rw [mod_wrap (by omega)] at h4
  unfold Buffer.room Buffer.n
  split at h4 <;> split <;> (try split) <;> simp only <;> omega

theorem QRel.step {b : Buffer} {q : Queue} (dbg : Bool) (h : QRel b q) (op : QOp) (hp : q.Proper [op])
    (ho : q.NeverOneTooMany [op]) :
    (b.step dbg op).1 = (q.step op).1 ∧ QRel (b.step dbg op).2 (q.step op).2 := by
  replace hp := hp.1
  replace ho := ho.1
  have hlen := h.len
  have h1 := h.cap; have h2 := h.head; have h3 := h.size; have h4 := h.tail
  have hsm := h.small
  have h4' := h4
  rw [mod_wrap (by omega)] at h4'
  cases op with
  | extend src =>
    simp only at ho
    by_cases c : q.size + src.length ≤ q.cap
    · obtain ⟨r1, r2, r3, r4⟩ := h.room _ c
      have e : b.extendFromSlice dbg src = .ok { b with
          buf := writeAt (writeAt b.buf b.tail (src.take (min src.length b.room.1))) 0 (src.drop (min src.length b.room.1)),
          tail := (b.tail + src.length) % b.buf.length } := by
        unfold Buffer.extendFromSlice Buffer.remain Buffer.capacity Buffer.n
        rw [hlen, if_neg (by split <;> omega)]
        simp only
        rw [if_neg (by omega), if_neg]
        rintro ⟨_, hn, ht⟩
        have : 0 < src.length := List.length_pos_iff.mpr hn
        rw [mod_wrap (by omega)] at ht
        split at ht <;> split at h4' <;> omega
      obtain ⟨w1, w2, w3⟩ := write_ring (buf := b.buf) (src := src) (t := b.tail) (m := min src.length b.room.1) r4 (by omega)
        (by omega) r2 (by omega)
      simp only [Buffer.step, e, Queue.step, if_pos c]
      have hsz : q.size + src.length = Queue.size { q with pending := q.pending ++ src } := by
        simp [Queue.size]; omega
      refine ⟨trivial, ?_⟩
      constructor
      · simpa only [w1] using hsm
      · simpa only [w1] using h1
      · simpa only [w1] using h2
      · simpa only [w1] using h.adTail
      · simp only [w1]
        rw [← hsz, h4, Nat.mod_add_mod, Nat.add_assoc]
      · rw [← hsz]; exact c
      · simp only
        rw [← hsz, ring_append, w1, ← h4, w2, w3 _ _ h2 h4.symm (by omega), h.data, List.append_assoc]
    · have e : b.extendFromSlice dbg src = .error (.err .internalError) := by
        unfold Buffer.extendFromSlice Buffer.remain Buffer.capacity Buffer.n
        rw [hlen, if_pos (by split <;> omega)]
      simp only [Buffer.step, e, Queue.step, if_neg c]
      exact ⟨trivial, h⟩
  | popTail =>
    simp only at hp
    have hpos : 0 < q.pending.length := List.length_pos_iff.mpr hp
    have hs0 : q.size = q.app.length + q.pending.length := rfl
    have e : b.popTail = some (b.buf.getD ((b.head + (q.size - 1)) % b.buf.length) 0,
        { b with tail := (b.head + (q.size - 1)) % b.buf.length }) := by
      unfold Buffer.popTail Buffer.isEmpty Buffer.n
      have ht : (if b.tail = 0 then b.buf.length - 1 else b.tail - 1) = (b.head + (q.size - 1)) % b.buf.length := by
        rw [mod_wrap (by omega)]
        split at h4' <;> split <;> split <;> omega
      rw [if_neg (by simp only [decide_eq_true_eq]; split at h4' <;> omega)]
      simp only [ht]
    have hsz : Queue.size { q with pending := q.pending.dropLast } = q.size - 1 := by
      simp [Queue.size]; omega
    have hd : ring b.buf b.head (q.size - 1) ++ [b.buf.getD ((b.head + (q.size - 1)) % b.buf.length) 0]
        = q.app ++ q.pending := by
      rw [← h.data]
      have : q.size = (q.size - 1) + 1 := by omega
      conv => rhs; rw [this, ring_append]
      simp [ring]
    have hlast : q.pending = q.pending.dropLast ++ [q.pending.getLast hp] := (List.dropLast_concat_getLast hp).symm
    rw [hlast, ← List.append_assoc] at hd
    obtain ⟨d1, d2⟩ := List.append_inj' hd (by simp)
    injection d2 with d2 _
    simp only [Buffer.step, e, Queue.step]
    refine ⟨by rw [d2, List.getLast?_eq_some_getLast hp], ?_⟩
    constructor
    · exact hsm
    · exact h1
    · exact h2
    · exact h.adTail
    · rw [hsz]
    · rw [hsz]; simp only; omega
    · rw [hsz]; exact d1
  | commit n =>
    simp only at hp
    subst hp
    have hs0 : q.size = q.app.length + q.pending.length := rfl
    have e : b.incrementApplicationDataTail dbg q.pending.length = .ok { b with adTail := b.tail } := by
      unfold Buffer.incrementApplicationDataTail Buffer.capacity Buffer.n
      rw [if_neg (by omega), h.adTail, Nat.mod_add_mod, h4, hs0, Nat.add_assoc]
    have hsz : Queue.size { q with app := q.app ++ q.pending, pending := [] } = q.size := by
      simp [Queue.size]
    simp only [Buffer.step, e, Queue.step]
    refine ⟨trivial, ?_⟩
    constructor
    · exact hsm
    · exact h1
    · exact h2
    · simp only [List.length_append]; exact h4
    · rw [hsz]; exact h4
    · rw [hsz]; exact h3
    · rw [hsz]; simpa using h.data
  | read p done =>
    have hs0 : q.size = q.app.length + q.pending.length := rfl
    have ha := h.adTail
    by_cases c : q.app = []
    · have e : b.appDataReader = .error .wouldBlock := by
        unfold Buffer.appDataReader
        rw [if_pos (by rw [ha, c]; simpa using Nat.mod_eq_of_lt h2)]
      simp only [Buffer.step, e, Queue.step, if_pos c]
      exact ⟨trivial, h⟩
    · have hpos : 0 < q.app.length := List.length_pos_iff.mpr c
      have ha' := ha
      rw [mod_wrap (by omega)] at ha'
      have hd := h.data
      rw [hs0, ring_append] at hd
      obtain ⟨d1, d2⟩ := List.append_inj hd (by simp)
      obtain ⟨s1, s2⟩ := asSlices_ring (buf := b.buf) (h := b.head) (k := q.app.length) h2 hpos (by omega)
      rw [← ha] at s1 s2
      have e : b.appDataReader = .ok ⟨CircleReader.new (asSlices b.buf b.adTail b.head).1 (asSlices b.buf b.adTail b.head).2,
          b.head, b.buf.length⟩ := by
        unfold Buffer.appDataReader
        rw [if_neg (by split at ha' <;> omega)]; rfl
      have rel : TRel ⟨CircleReader.new (asSlices b.buf b.adTail b.head).1 (asSlices b.buf b.adTail b.head).2,
          b.head, b.buf.length⟩ ⟨q.app, 0⟩ := by
        refine ⟨?_, rfl, Nat.zero_le _, by simp only; omega⟩
        rw [← d1]; exact s1
      obtain ⟨x1, x2, x3, x4, x5⟩ := tlsReader_sim dbg p rel
      simp only [Buffer.step, e, Queue.step, if_neg c]
      refine ⟨by rw [x1], ?_⟩
      cases done with
      | false => exact h
      | true =>
        simp only [if_true]
        generalize hy : p.run cursorOps ⟨q.app, 0⟩ = y at *
        generalize hx : p.run (TlsReader.ops dbg) _ = x at *
        have y1 := CRel.ptr x2
        have y2 := CRel.pos x2
        rw [x5] at y2
        simp only at y2
        have hdone : x.2.done = (b.head + y.2.pos) % b.buf.length := by
          rw [TlsReader.done, x3, x4, y1]
        have hsz : Queue.size { q with app := q.app.drop y.2.pos } = q.size - y.2.pos := by
          simp [Queue.size]; omega
        constructor
        · exact hsm
        · exact h1
        · simp only; rw [hdone]; exact Nat.mod_lt _ (by omega)
        · simp only [List.length_drop]
          rw [hdone, Nat.mod_add_mod, ha]; congr 1; omega
        · rw [hsz]; simp only
          rw [hdone, Nat.mod_add_mod, h4]; congr 1; omega
        · rw [hsz]; simp only; omega
        · rw [hsz]; simp only
          rw [hdone]
          have := h.data
          have hq : q.size = y.2.pos + (q.size - y.2.pos) := by omega
          rw [hq, ring_append] at this
          have t := congrArg (List.drop y.2.pos) this
          rw [List.drop_append_of_le_length (by simp), List.drop_of_length_le (by simp), List.nil_append,
            List.drop_append_of_le_length y2] at t
          exact t

/-- **C53 (partial).**  Whatever is done to a TLS receive buffer of any size up to 32 KiB, in any order and with any use of the
readers, what is seen is what a queue with room for all but one byte of the buffer shows: bytes come out in the order they went
in, and an append is refused (and changes nothing) when it would overwrite unread bytes.  What is missing for the full property
is the append of exactly one byte too many, which the code accepts: `C53_one_byte_too_many_is_accepted`. -/
theorem C53_receive_buffer_is_a_queue_partial (dbg : Bool) (buf : Bytes) (ops : List QOp)
    (h0 : 0 < buf.length) (h1 : buf.length ≤ 32768)
    (hp : Queue.Proper ⟨buf.length - 1, [], []⟩ ops) (ho : Queue.NeverOneTooMany ⟨buf.length - 1, [], []⟩ ops) :
    (Buffer.ofBuf buf).run dbg ops = Queue.run ⟨buf.length - 1, [], []⟩ ops := by
  have key : ∀ (ops : List QOp) (b : Buffer) (q : Queue), QRel b q → q.Proper ops → q.NeverOneTooMany ops →
      b.run dbg ops = q.run ops := by
    intro ops
    induction ops with
    | nil => intros; rfl
    | cons op rest ih =>
      intro b q h hp ho
      obtain ⟨s1, s2⟩ := h.step dbg op ⟨hp.1, trivial⟩ ⟨ho.1, trivial⟩
      simp only [Buffer.run, Queue.run, s1]
      rw [ih _ _ s2 hp.2 ho.2]
  apply key _ _ _ ?_ hp ho
  refine ⟨h1, by simp only [Buffer.ofBuf]; omega, h0, ?_, ?_, Nat.zero_le _, rfl⟩ <;>
    simp [Buffer.ofBuf, Queue.size]

/-- A history: a record of five bytes, the last one taken off, a reader that reads three bytes, a record around the end of the
buffer, an append that does not fit. -/
def sampleOps : List QOp :=
  [.extend [1, 2, 3, 4, 23], .popTail, .commit 4, .read (.readExact 3 .ret) true, .extend [5, 6, 7], .commit 3, .extend [8, 9, 10, 11, 12, 13],
   .read (.seek (.«end» (-3)) fun _ => .read 100 .ret) false, .read (.readExact 5 .ret) true, .read (.readExact 2 .ret) true]

example : Queue.Proper ⟨7, [], []⟩ sampleOps ∧ Queue.NeverOneTooMany ⟨7, [], []⟩ sampleOps := by
  simp only [Queue.Proper, Queue.NeverOneTooMany, sampleOps]
  decide

example : (Buffer.ofBuf [0, 0, 0, 0, 0, 0, 0, 0]).run true sampleOps =
    [.ok, .byte (some 23), .ok, .got (.ok [1, 2, 3]), .ok, .ok, .refused, .got (.ok [5, 6, 7]),
     .got (.error .unexpectedEof), .got (.ok [4, 5])] := by decide +kernel

/-- The append of one byte too many, after the buffer was full and one byte was read: it is accepted, and all of the 1024
unread bytes are lost.  (In a debug build the append panics.)  So the code does not have property C53. -/
theorem C53_one_byte_too_many_is_accepted :
    let ops : List QOp := [.extend (List.replicate 1023 7), .commit 1023, .read (.readExact 1 .ret) true, .extend [8], .commit 1,
      .extend [9], .commit 1, .read (.readExact 1 .ret) true]
    let buf : Bytes := List.replicate 1024 0
    Queue.Proper ⟨1023, [], []⟩ (ops.take 6) ∧
    Queue.run ⟨1023, [], []⟩ (ops.take 6) = [.ok, .ok, .got (.ok [7]), .ok, .ok, .refused] ∧
    (Buffer.ofBuf buf).run false ops = [.ok, .ok, .got (.ok [7]), .ok, .ok, .ok, .ok, .got (.error .wouldBlock)] ∧
    (Buffer.ofBuf buf).run true (ops.take 6) = [.ok, .ok, .got (.ok [7]), .ok, .ok, .panic] := by
  refine ⟨?_, by decide +kernel, by decide +kernel, by decide +kernel⟩
  simp only [Queue.Proper, List.take]
  decide +kernel

end Verif.Tls
