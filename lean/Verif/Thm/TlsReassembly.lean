import Verif.Thm.TlsBuffer
import Verif.Spec.TlsHandshakeMsg
/-!
# C77: reassembly of handshake messages
-/
namespace Verif.Tls
open Verif Hl Spec

/-- `pop_handshake_record` until there is no more message, as `recv_handshake` does (`tls/src/lib.rs:1000-1130`): the types and
bodies that are handed out.  `fuel` bounds the number of messages; running out of it is `hang`. -/
def popAll : Nat → Buffer → Res (List HsMsg × Buffer)
  | 0, _ => .error (.stop .hang)
  | fuel + 1, b => b.popHandshakeRecord >>= fun
    | none => .ok ([], b)
    | some ((h, r), b') => popAll fuel b' >>= fun x => .ok (⟨h[0], r.a ++ r.b⟩ :: x.1, x.2)

/-- The contents of handshake records arrive one after the other: what is handed out after each of them. -/
def receiveAll (dbg : Bool) (fuel : Nat) : List Bytes → Buffer → Res (List (List HsMsg))
  | [], _ => .ok []
  | f :: fs, b => b.extendFromSlice dbg f >>= fun b1 => popAll fuel b1 >>= fun x =>
    receiveAll dbg fuel fs x.2 >>= fun rest => .ok (x.1 :: rest)

theorem readHeadFrom_ring {b : Buffer} : ∀ (k pos : Nat), pos < b.buf.length → b.readHeadFrom pos k = ring b.buf pos k := by
  intro k
  induction k with
  | zero => intros; rfl
  | succ k ih =>
    intro pos hp
    rw [Buffer.readHeadFrom, Nat.add_comm k 1, ring_append]
    have e : (if pos + 1 = b.n then 0 else pos + 1) = (pos + 1) % b.buf.length := by
      rw [mod_wrap (by omega)]; unfold Buffer.n
      split <;> split <;> omega
    rw [e, ih _ (Nat.mod_lt _ (by omega))]
    simp [ring, Nat.mod_eq_of_lt hp]

/-- The buffer holds the first bytes `p` of a handshake message, and nothing else. -/
structure Part (b : Buffer) (p : Bytes) : Prop where
  q : QRel b ⟨b.buf.length - 1, [], p⟩
  head : b.head = 0
  hs : b.hsHead = 0

theorem Part.tail {b : Buffer} {p : Bytes} (h : Part b p) : b.tail = p.length ∧ b.adTail = 0 ∧ p.length < b.buf.length := by
  have h1 := h.q.tail; have h2 := h.q.size; have h3 := h.q.cap; have h4 := h.q.adTail; have h5 := h.q.head
  simp only [Queue.size, List.length_nil, Nat.zero_add, h.head] at h1 h2 h3 h4 h5
  refine ⟨by rw [h1, Nat.mod_eq_of_lt (by omega)], by simpa using h4, by omega⟩

theorem Part.extend {dbg : Bool} {b : Buffer} {p src : Bytes} (h : Part b p) (hl : p.length + src.length < b.buf.length) :
    ∃ b', b.extendFromSlice dbg src = .ok b' ∧ Part b' (p ++ src) ∧ b'.buf.length = b.buf.length := by
  obtain ⟨t1, t2, t3⟩ := h.tail
  have := h.q.step dbg (.extend src) ⟨trivial, trivial⟩ ⟨by simp only [Queue.size, List.length_nil]; omega, trivial⟩
  simp only [Buffer.step, Queue.step] at this
  rw [if_pos (by simp only [Queue.size, List.length_nil]; omega)] at this
  have hx : ∀ b', b.extendFromSlice dbg src = .ok b' → b'.head = b.head ∧ b'.hsHead = b.hsHead := by
    intro b' he
    unfold Buffer.extendFromSlice at he
    split at he
    · cases he
    · simp only at he
      split at he
      · cases he
      · split at he
        · cases he
        · injection he with he; subst he; exact ⟨rfl, rfl⟩
  cases he : b.extendFromSlice dbg src with
  | error e => rw [he] at this; cases e <;> simp at this
  | ok b' =>
    rw [he] at this
    obtain ⟨_, q'⟩ := this
    simp only at q'
    obtain ⟨x1, x2⟩ := hx b' he
    have hc := q'.cap
    simp only at hc
    have hlen : b'.buf.length = b.buf.length := by omega
    refine ⟨b', rfl, ⟨?_, by rw [x1, h.head], by rw [x2, h.hs]⟩, hlen⟩
    rw [hlen]; exact q'

theorem Part.data {b : Buffer} {p : Bytes} (h : Part b p) : ring b.buf 0 p.length = p := by
  have := h.q.data
  simpa [Queue.size, h.head] using this

theorem ring_prefix {buf : Bytes} {h k m : Nat} (hm : m ≤ k) : ring buf h m = (ring buf h k).take m := by
  have : k = m + (k - m) := by omega
  rw [this, ring_append, List.take_append_of_le_length (by simp), List.take_of_length_le (by simp)]

theorem Part.len {b : Buffer} {p : Bytes} (h : Part b p) : b.len = p.length := by
  obtain ⟨t1, t2, t3⟩ := h.tail
  unfold Buffer.len
  rw [h.head, if_neg (by omega), t1]; omega

theorem Part.readHead {b : Buffer} {p : Bytes} (h : Part b p) :
    b.readHead 4 = if p.length < 4 then none else some (p.take 4) := by
  obtain ⟨t1, t2, t3⟩ := h.tail
  unfold Buffer.readHead
  rw [h.len]
  split
  · rfl
  · rw [readHeadFrom_ring _ _ h.q.head, h.head, ring_prefix (k := p.length) (by omega), h.data]

theorem hdr_length (m : HsMsg) (hm : m.body.length < 16777216) :
    (HandshakeHeader.length #v[m.type, UInt8.ofNat (m.body.length / 65536), UInt8.ofNat (m.body.length / 256),
      UInt8.ofNat m.body.length]).toNat = m.body.length := by
  unfold HandshakeHeader.length
  rw [UInt32.toNat_and]
  show (be32 m.type (UInt8.ofNat (m.body.length / 65536)) (UInt8.ofNat (m.body.length / 256)) (UInt8.ofNat m.body.length)).toNat &&& (2 ^ 24 - 1) = _
  rw [Nat.and_two_pow_sub_one_eq_mod, be32_toNat, UInt8.toNat_ofNat', UInt8.toNat_ofNat', UInt8.toNat_ofNat']
  omega

theorem hdr_lengthWithHeader (h : HandshakeHeader) : h.lengthWithHeader.toNat = h.length.toNat + 4 := by
  unfold HandshakeHeader.lengthWithHeader
  have : h.length.toNat < 2 ^ 24 := by
    unfold HandshakeHeader.length
    rw [UInt32.toNat_and]
    exact Nat.lt_of_le_of_lt Nat.and_le_right (by decide)
  rw [UInt32.toNat_add]
  show (_ + 4) % _ = _
  omega

theorem Part.record {b : Buffer} {p : Bytes} (h : Part b p) (m : HsMsg) (hp : p <+: m.bytes)
    (hm : m.bytes.length < b.buf.length) (hb : b.buf.length ≤ 32768) :
    (p ≠ m.bytes → b.popHandshakeRecord = .ok none) ∧
    (p = m.bytes → ∃ hdr r b', b.popHandshakeRecord = .ok (some ((hdr, r), b')) ∧ hdr[0] = m.type ∧ r.a ++ r.b = m.body ∧
      Part b' [] ∧ b'.buf.length = b.buf.length ∧ r = CircleReader.new r.a r.b ∧ hdr.toList ++ (r.a ++ r.b) = m.bytes ∧
      hdr.length.toNat = m.body.length) := by
  obtain ⟨t1, t2, t3⟩ := h.tail
  have hml : m.bytes.length = m.body.length + 4 := rfl
  by_cases c4 : p.length < 4
  · constructor
    · intro _
      unfold Buffer.popHandshakeRecord
      rw [h.readHead, if_pos c4]
    · intro e; rw [e] at c4; omega
  · have e4 : p.take 4 = [m.type, UInt8.ofNat (m.body.length / 65536), UInt8.ofNat (m.body.length / 256), UInt8.ofNat m.body.length] := by
      obtain ⟨t, ht⟩ := hp
      have := congrArg (List.take 4) ht
      rw [List.take_append_of_le_length (by omega)] at this
      rw [this]; rfl
    have hlen := hdr_length m (by omega)
    have hlw := hdr_lengthWithHeader #v[m.type, UInt8.ofNat (m.body.length / 65536), UInt8.ofNat (m.body.length / 256),
      UInt8.ofNat m.body.length]
    rw [hlen] at hlw
    have hhs : b.hsLen = p.length := by
      unfold Buffer.hsLen
      rw [h.hs, if_neg (by omega), t1]; omega
    constructor
    · intro ne
      have : p.length < m.bytes.length := by
        have := hp.length_le
        have : p.length ≠ m.bytes.length := fun e => ne (hp.eq_of_length e)
        omega
      unfold Buffer.popHandshakeRecord
      rw [h.readHead, if_neg c4, e4]
      simp only [List.getD_cons_zero, List.getD_cons_succ]
      rw [hlw, if_neg (by unfold Buffer.capacity Buffer.n; omega), hhs, if_pos (by omega)]
    · intro e
      have hpl : p.length = m.body.length + 4 := by rw [e]; rfl
      have h4n : (0 + 4) % b.buf.length = 4 := Nat.mod_eq_of_lt (by omega)
      let b1 : Buffer := { b with hsHead := 4 }
      have hb1len : b1.len = p.length := h.len
      have sl : (asSlices b.buf b.tail 4).1.take m.body.length ++ (asSlices b.buf b.tail 4).2.take (m.body.length - (asSlices b.buf b.tail 4).1.length)
          = m.body ∧ m.body.length - (asSlices b.buf b.tail 4).1.length ≤ (asSlices b.buf b.tail 4).2.length := by
        by_cases c0 : m.body.length = 0
        · have : m.body = [] := List.length_eq_zero_iff.mp c0
          rw [this]; simp
        · have hr := asSlices_ring (buf := b.buf) (h := 4) (k := m.body.length) (by omega) (by omega) (by omega)
          have ht : (4 + m.body.length) % b.buf.length = b.tail := by rw [Nat.mod_eq_of_lt (by omega), t1]; omega
          rw [ht] at hr
          have hd := h.data
          have hpl' : p.length = 4 + m.body.length := by omega
          rw [hpl', ring_append, Nat.mod_eq_of_lt (show 0 + 4 < b.buf.length by omega)] at hd
          have hd2 := congrArg (List.drop 4) hd
          rw [List.drop_append_of_le_length (by simp), List.drop_of_length_le (by simp), List.nil_append, e] at hd2
          have hd3 : ring b.buf 4 m.body.length = m.body := hd2
          rw [← List.take_append, hr.1, List.take_of_length_le (by simp), hd3]
          exact ⟨rfl, by omega⟩
      have hpop : ∃ s, b1.popHandshakeSlicesOfN m.body.length = .ok (some (s, { b with hsHead := 0, tail := 0 })) ∧ s.1 ++ s.2 = m.body := by
        unfold Buffer.popHandshakeSlicesOfN
        rw [if_neg (by rw [hb1len]; omega)]
        simp only [b1, Buffer.n]
        have hc : (4 + m.body.length) % b.buf.length = b.tail := by rw [Nat.mod_eq_of_lt (by omega)]; omega
        simp only [hc, if_true, t2]
        by_cases cl : m.body.length ≤ (asSlices b.buf b.tail 4).1.length
        · rw [if_pos cl]
          refine ⟨_, rfl, ?_⟩
          have := sl.1
          rw [Nat.sub_eq_zero_of_le cl] at this
          simpa using this
        · rw [if_neg cl, if_pos sl.2]
          refine ⟨_, rfl, ?_⟩
          have := sl.1
          rw [List.take_of_length_le (l := (asSlices b.buf b.tail 4).1) (by omega)] at this
          exact this
      obtain ⟨s, hs1, hs2⟩ := hpop
      refine ⟨#v[m.type, UInt8.ofNat (m.body.length / 65536), UInt8.ofNat (m.body.length / 256), UInt8.ofNat m.body.length],
        CircleReader.new s.1 s.2, { b with hsHead := 0, tail := 0 }, ?_, rfl, hs2, ?_, rfl, rfl, ?_, hlen⟩
      · unfold Buffer.popHandshakeRecord
        rw [h.readHead, if_neg c4, e4]
        simp only [List.getD_cons_zero, List.getD_cons_succ]
        rw [hlw, if_neg (by unfold Buffer.capacity Buffer.n; omega), hhs, if_neg (by omega), h.hs]
        simp only [Buffer.n, h4n, hlen]
        rw [hs1]
      · refine ⟨⟨hb, by simp only; omega, h.q.head, ?_, ?_, Nat.zero_le _, rfl⟩, h.head, rfl⟩
        · simp only [h.head, List.length_nil, t2]; simp
        · simp only [h.head, Queue.size, List.length_nil]; simp
      · show _ ++ (s.1 ++ s.2) = _
        rw [hs2]
        rfl

theorem Part.empty_pop {b : Buffer} (h : Part b []) : b.popHandshakeRecord = .ok none := by
  unfold Buffer.popHandshakeRecord
  rw [h.readHead, if_pos (by simp)]

/-- The messages handed out while a message arrives that has begun with `p`. -/
theorem Part.receive {dbg : Bool} {fuel : Nat} (hf : 2 ≤ fuel) (m : HsMsg) : ∀ (frags : List Bytes) (b : Buffer) (p : Bytes), Part b p →
    p ++ frags.flatten = m.bytes → (∀ f ∈ frags, f ≠ []) → p ≠ m.bytes → m.bytes.length < b.buf.length → b.buf.length ≤ 32768 →
    ∀ rest, ∃ b', Part b' [] ∧ b'.buf.length = b.buf.length ∧
      receiveAll dbg fuel (frags ++ rest) b = (receiveAll dbg fuel rest b').map
        fun out => List.replicate (frags.length - 1) [] ++ [[m]] ++ out := by
  intro frags
  induction frags with
  | nil => intro b p h e _ ne; simp at e; exact absurd e ne
  | cons f fs ih =>
    intro b p h e hne ne hm hb rest
    have hlen := congrArg List.length e
    simp only [List.length_append, List.flatten_cons] at hlen
    obtain ⟨b1, x1, x2, x3⟩ := h.extend (dbg := dbg) (src := f) (by omega)
    obtain ⟨r1, r2⟩ := x2.record m ⟨fs.flatten, by rw [List.append_assoc]; exact e⟩ (by omega) (by omega)
    obtain ⟨g, rfl⟩ : ∃ g, fuel = g + 2 := ⟨fuel - 2, by omega⟩
    by_cases c : p ++ f = m.bytes
    · have hfs : fs = [] := by
        cases fs with
        | nil => rfl
        | cons a as =>
          exfalso
          have h1 := congrArg List.length c
          have h2 : 0 < a.length := List.length_pos_iff.mpr (hne a (by simp))
          simp only [List.length_append, List.flatten_cons] at h1 hlen
          omega
      subst hfs
      obtain ⟨hdr, r, b2, y1, y2, y3, y4, y5⟩ := r2 c
      refine ⟨b2, y4, by omega, ?_⟩
      have hall : popAll (g + 2) b1 = .ok ([m], b2) := by
        unfold popAll
        rw [y1]
        simp only [bind, Except.bind]
        unfold popAll
        rw [y4.empty_pop]
        simp only [bind, Except.bind, y2, y3]
      simp only [List.cons_append, List.nil_append, receiveAll, x1, bind, Except.bind, hall]
      cases receiveAll dbg (g + 2) rest b2 <;> rfl
    · have hpop := r1 c
      have hall : popAll (g + 2) b1 = .ok ([], b1) := by
        unfold popAll
        rw [hpop]
        simp only [bind, Except.bind]
      obtain ⟨b', z1, z2, z3⟩ := ih b1 (p ++ f) x2 (by rw [List.append_assoc]; exact e)
        (fun a ha => hne a (List.mem_cons_of_mem _ ha)) c (by omega) (by omega) rest
      refine ⟨b', z1, by omega, ?_⟩
      have hfs : fs ≠ [] := by
        intro hfs; subst hfs; apply c; simpa using e
      have hl : 0 < fs.length := List.length_pos_iff.mpr hfs
      simp only [List.cons_append, receiveAll, x1, bind, Except.bind, hall, z3, List.length_cons]
      have : fs.length + 1 - 1 = (fs.length - 1) + 1 := by omega
      rw [this, List.replicate_succ]
      cases receiveAll dbg (g + 2) rest b' <;> rfl

/-- **C77 (partial).**  Handshake messages that arrive in any number of records, cut anywhere, are handed out whole, unchanged,
once and in order, each when its last byte has arrived: the buffer has been reset (as it is when a connection begins), and a
record has bytes of one message only.  What is missing for the full property are records with bytes of several messages and
messages after application data; there it fails, see below. -/
theorem C77_fragmented_messages_are_reassembled_partial (dbg : Bool) (b : Buffer) (ms : List Fragmented) (fuel : Nat) (hf : 2 ≤ fuel)
    (h0 : 0 < b.buf.length) (h1 : b.buf.length ≤ 32768) (hfit : ∀ x ∈ ms, x.msg.bytes.length < b.buf.length) :
    receiveAll dbg fuel (ms.flatMap fun x => x.frags) b.reset =
      .ok (ms.flatMap fun x => List.replicate (x.frags.length - 1) [] ++ [[x.msg]]) := by
  have start : Part b.reset [] := by
    refine ⟨⟨h1, ?_, h0, ?_, ?_, Nat.zero_le _, rfl⟩, rfl, rfl⟩
    · simp only [Buffer.reset]; omega
    · simp [Buffer.reset]
    · simp [Buffer.reset, Queue.size]
  have key : ∀ (ms : List Fragmented) (b : Buffer), Part b [] → b.buf.length ≤ 32768 →
      (∀ x ∈ ms, x.msg.bytes.length < b.buf.length) →
      receiveAll dbg fuel (ms.flatMap fun x => x.frags) b =
        .ok (ms.flatMap fun x => List.replicate (x.frags.length - 1) [] ++ [[x.msg]]) := by
    intro ms
    induction ms with
    | nil => intros; rfl
    | cons x xs ih =>
      intro b hb hs hfit
      obtain ⟨b', p1, p2, p3⟩ := Part.receive (dbg := dbg) hf x.msg x.frags b [] hb (by simpa using x.whole) x.notEmpty
        (by simp [HsMsg.bytes]) (hfit x (by simp)) hs (xs.flatMap fun x => x.frags)
      simp only [List.flatMap_cons]
      rw [p3, ih b' p1 (by omega) (fun y hy => by rw [p2]; exact hfit y (by simp [hy]))]
      simp [Except.map]
  exact key ms _ start h1 hfit

/-- Two messages, the first one in three records. -/
def sampleFragments : List Fragmented :=
  [⟨⟨8, [0, 0]⟩, [[8, 0], [0, 2, 0], [0]], by decide, by decide⟩, ⟨⟨20, [1, 2, 3]⟩, [[20, 0, 0, 3, 1, 2, 3]], by decide, by decide⟩]

example : ∀ x ∈ sampleFragments, x.msg.bytes.length < (List.replicate 1024 (0 : UInt8)).length := by
  rw [List.length_replicate]; decide
example : receiveAll true 5 (sampleFragments.flatMap fun x => x.frags) (Buffer.ofBuf (List.replicate 1024 0)) =
    .ok [[], [], [⟨8, [0, 0]⟩], [⟨20, [1, 2, 3]⟩]] := by decide +kernel

/-- Two messages in one record, EncryptedExtensions and Finished as a server sends them: the second one is handed out with
the header of the first one and other bytes as its body.  So the code does not have property C77. -/
theorem C77_messages_in_one_record_are_not_split :
    let ee : HsMsg := ⟨8, [0, 0]⟩
    let fin : HsMsg := ⟨20, List.replicate 32 0xAA⟩
    receiveAll false 2 [ee.bytes, fin.bytes] (Buffer.ofBuf (List.replicate 1024 0)) = .ok [[ee], [fin]] ∧
    receiveAll false 8 [ee.bytes ++ fin.bytes] (Buffer.ofBuf (List.replicate 1024 0)) =
      .ok [[ee, ⟨8, [0xAA, 0xAA]⟩, ⟨8, [0xAA, 0xAA]⟩, ⟨8, [0xAA, 0xAA]⟩, ⟨8, [0xAA, 0xAA]⟩, ⟨8, [0xAA, 0xAA]⟩, ⟨8, [0xAA, 0xAA]⟩]] := by
  refine ⟨by decide +kernel, by decide +kernel⟩

/-- The buffer after application data was received and, up to the last `k` bytes, read. -/
def afterAppData (data : Bytes) (k : Nat) : Except (Fail AlertDescription) Buffer :=
  (Buffer.ofBuf (List.replicate 1024 0)).extendFromSlice true data >>= fun b =>
  match b.incrementApplicationDataTail true data.length with
  | .error e => .error (.stop e)
  | .ok b => .ok (b.step true (.read (.readExact (data.length - k) .ret) true)).2

/-- After application data was received and read, a KeyUpdate message is handed out with bytes of that application data as its
body, and then a second time. -/
theorem C77_message_after_application_data_has_other_bytes :
    (afterAppData [104, 101, 108, 108, 111, 33] 0 >>= receiveAll true 8 [(⟨24, [1]⟩ : HsMsg).bytes]) = .ok [[⟨24, [111]⟩, ⟨24, [1]⟩]] := by
  decide +kernel

/-- After application data was received and read, the first part of a session ticket makes the client panic. -/
theorem C77_fragment_after_application_data_panics :
    (afterAppData (List.replicate 200 7) 0 >>= receiveAll false 8 [(⟨4, List.replicate 100 9⟩ : HsMsg).bytes.take 50])
      = .error (.stop .panic) := by
  decide +kernel

/-- With unread application data, its bytes are taken as the header of a handshake message that arrives. -/
theorem C77_unread_application_data_is_taken_as_a_message :
    (afterAppData [24, 0, 0, 1, 1] 5 >>= receiveAll true 8 [(⟨4, List.replicate 30 9⟩ : HsMsg).bytes.take 2])
      = .ok [[⟨24, [1]⟩]] := by
  decide +kernel

/-- A whole message in the buffer that goes around the end of the buffer is not handed out, because the length of a wrapped
buffer is counted one too small. -/
theorem C77_message_around_the_end_waits (b : Buffer) (m : HsMsg) (h0 : b.head < b.buf.length) (hs : b.hsHead = b.head)
    (hfit : m.bytes.length < b.buf.length) (hmax : b.buf.length ≤ 32768) (hwrap : b.buf.length ≤ b.head + m.bytes.length)
    (ht : b.tail = (b.head + m.bytes.length) % b.buf.length)
    (hd : ∀ i, i < m.bytes.length → b.buf.getD ((b.head + i) % b.buf.length) 0 = m.bytes.getD i 0) :
    b.popHandshakeRecord = .ok none := by
  have hml : m.bytes.length = m.body.length + 4 := rfl
  rw [mod_wrap (by omega), if_neg (by omega)] at ht
  have hlen : b.len + 1 = m.bytes.length := by
    unfold Buffer.len Buffer.capacity Buffer.n
    rw [if_pos (by omega)]; omega
  have hhs : b.hsLen + 1 = m.bytes.length := by
    unfold Buffer.hsLen Buffer.capacity Buffer.n
    rw [hs, if_pos (by omega)]; omega
  unfold Buffer.popHandshakeRecord Buffer.readHead
  by_cases c : b.len < 4
  · rw [if_pos c]
  rw [if_neg c, readHeadFrom_ring _ _ h0]
  have e4 : ring b.buf b.head 4 = [m.type, UInt8.ofNat (m.body.length / 65536), UInt8.ofNat (m.body.length / 256), UInt8.ofNat m.body.length] := by
    have e0 := hd 0 (by omega); have e1 := hd 1 (by omega); have e2 := hd 2 (by omega); have e3 := hd 3 (by omega)
    simp only [HsMsg.bytes, List.getD_cons_zero, List.getD_cons_succ] at e0 e1 e2 e3
    simp only [ring, List.range, List.range.loop, List.map_cons, List.map_nil, e0, e1, e2, e3]
  have hlw := hdr_lengthWithHeader #v[m.type, UInt8.ofNat (m.body.length / 65536), UInt8.ofNat (m.body.length / 256),
    UInt8.ofNat m.body.length]
  rw [hdr_length m (by omega)] at hlw
  rw [e4]
  simp only [List.getD_cons_zero, List.getD_cons_succ]
  rw [hlw, if_neg (by unfold Buffer.capacity Buffer.n; omega), if_pos (by omega)]

/-- Such a buffer is reached: after 680 bytes of application data, all read, and a first session ticket, a second one that
arrives whole is not handed out. -/
theorem C77_second_ticket_waits :
    (afterAppData (List.replicate 680 7) 0 >>= receiveAll true 8 [(⟨4, List.replicate 336 9⟩ : HsMsg).bytes, (⟨4, List.replicate 396 9⟩ : HsMsg).bytes]).map
      (·.map List.length) = .ok [3, 0] := by
  decide +kernel

end Verif.Tls
