import Verif.Proof.Dns
import Verif.Thm.Dns
import Verif.Thm.HlUdp
/-!
# C27, C30: responses and resource records
-/
namespace Verif.Thm
open Verif Hl Spec Dns Spec.Dns

/-! ## C30 -/

/-- What the record data of type code `t` at offset `q` holds. -/
def DataAt (m : Bytes) (q t : Nat) (d : RData) : Prop :=
  if t = 1 then d = .A ⟨m.getD q 0, m.getD (q + 1) 0, m.getD (q + 2) 0, m.getD (q + 3) 0⟩
  else if t = 33 then
    ∃ s, d = .SVR s ∧ s.priority.toNat = word m q ∧ s.weight.toNat = word m (q + 2) ∧ s.port.toNat = word m (q + 4)
  else d = .unsupported

/-- How many bytes of the record data of type code `t` the decoder needs. -/
def needed (t : Nat) : Nat := if t = 1 then 4 else if t = 33 then 6 else 0

theorem qtype_iff (t : UInt16) (q : Qtype) : Qtype.tryFrom t = .ok q ↔ t = q.code :=
  ⟨fun h => (C31_qtype_codes.exact t q h).symm, fun h => h ▸ C31_qtype_codes.roundtrip q⟩

theorem run_readRData (m : Bytes) (q : Nat) (t : UInt16) :
    (q + needed t.toNat ≤ m.length ∨ needed t.toNat = 0 → ∃ d, DataAt m q t.toNat d ∧
      (readRData (Qtype.tryFrom t)).run cursorOps ⟨m, q⟩ = (.ok d, ⟨m, q + needed t.toNat⟩)) ∧
    (¬ (q + needed t.toNat ≤ m.length ∨ needed t.toNat = 0) →
      ∃ c, (readRData (Qtype.tryFrom t)).run cursorOps ⟨m, q⟩ = (.error .unexpectedEof, c)) := by
  by_cases h1 : t.toNat = 1
  · have : t = 1 := u16_ext h1
    subst this
    have e : Qtype.tryFrom 1 = .ok .A := rfl
    rw [e]
    have hn : needed (1 : UInt16).toNat = 4 := rfl
    rw [hn]
    unfold readRData
    constructor
    · intro h
      have h4 : 4 ≤ m.length - q := by omega
      rw [RProg.bind_ok (cur_readExact h4), drop_take4 h4]
      exact ⟨_, by unfold DataAt; rw [if_pos (show (1 : UInt16).toNat = 1 from rfl)], rfl⟩
    · intro h
      rw [RProg.bind_error (cur_readExact_eof (by omega))]
      exact ⟨_, rfl⟩
  by_cases h33 : t.toNat = 33
  · have : t = 33 := u16_ext h33
    subst this
    have e : Qtype.tryFrom 33 = .ok .SVR := rfl
    rw [e]
    have hn : needed (33 : UInt16).toNat = 6 := rfl
    rw [hn]
    unfold readRData
    constructor
    · intro h
      rw [RProg.bind_ok (run_readU16 (by omega)), RProg.bind_ok (run_readU16 (by omega)),
        RProg.bind_ok (run_readU16 (by omega))]
      refine ⟨_, ?_, rfl⟩
      unfold DataAt
      rw [if_neg (by decide), if_pos (show (33 : UInt16).toNat = 33 from rfl)]
      exact ⟨_, rfl, ofNat16_toNat (word_lt ..), ofNat16_toNat (word_lt ..), ofNat16_toNat (word_lt ..)⟩
    · intro h
      by_cases a : 2 ≤ m.length - q
      · rw [RProg.bind_ok (run_readU16 a)]
        by_cases b : 2 ≤ m.length - (q + 2)
        · rw [RProg.bind_ok (run_readU16 b)]
          have c : ¬ 2 ≤ m.length - (q + 2 + 2) := by omega
          exact ⟨_, by rw [RProg.bind_error]; unfold readU16; exact RProg.bind_error (cur_readExact_eof c)⟩
        · exact ⟨_, by rw [RProg.bind_error]; unfold readU16; exact RProg.bind_error (cur_readExact_eof b)⟩
      · exact ⟨_, by rw [RProg.bind_error]; unfold readU16; exact RProg.bind_error (cur_readExact_eof a)⟩
  · have hn : needed t.toNat = 0 := by unfold needed; rw [if_neg h1, if_neg h33]
    rw [hn]
    refine ⟨fun _ => ⟨.unsupported, by unfold DataAt; rw [if_neg h1, if_neg h33], ?_⟩, fun h => absurd (.inr rfl) h⟩
    unfold readRData
    have nA : Qtype.tryFrom t ≠ .ok .A := fun h => h1 (by rw [(qtype_iff t .A).mp h]; rfl)
    have nS : Qtype.tryFrom t ≠ .ok .SVR := fun h => h33 (by rw [(qtype_iff t .SVR).mp h]; rfl)
    revert nA nS
    rcases Qtype.tryFrom t with e | q'
    · intros; rfl
    · cases q' <;> intro nA nS <;> first | rfl | exact absurd rfl nA | exact absurd rfl nS

theorem satAdd16_toNat (a b : UInt16) : (satAdd16 a b).toNat = min (a.toNat + b.toNat) 65535 := by
  unfold satAdd16
  split
  · rw [UInt16.toNat_add]; omega
  · show 65535 = _; omega

/-- What follows the name of a record that starts at `q`. -/
theorem run_afterName (m : Bytes) (q : Nat) (name : Option Bytes) (hm : m.length < 65535) :
    let tail : RProg ResourceRecord := do
      let qtype ← readU16
      let class_ ← readU16
      let ttl ← readU32
      let rdlength ← readU16
      let before ← .doStreamPosition
      let rdata ← readRData (Qtype.tryFrom qtype)
      skipRData before rdlength
      pure { name := name, qtype := Qtype.tryFrom qtype, class_ := Qclass.tryFrom class_, ttl := ttl, rdata := rdata }
    if q + 10 + max (needed (word m q)) (word m (q + 8)) ≤ m.length then
      ∃ rr, tail.run cursorOps ⟨m, q⟩
          = (.ok rr, ⟨m, q + 10 + if word m (q + 8) = 0 then needed (word m q) else word m (q + 8)⟩) ∧
        rr.name = name ∧ rr.qtype = Qtype.tryFrom (UInt16.ofNat (word m q)) ∧
        rr.class_ = Qclass.tryFrom (UInt16.ofNat (word m (q + 2))) ∧ rr.ttl.toNat = long m (q + 4) ∧
        DataAt m (q + 10) (word m q) rr.rdata
    else ∃ c, tail.run cursorOps ⟨m, q⟩ = (.error .unexpectedEof, c) := by
  intro tail
  have eof16 : ∀ {p}, ¬ 2 ≤ m.length - p → readU16.run cursorOps ⟨m, p⟩ = (.error .unexpectedEof, ⟨m, p⟩) := by
    intro p h; unfold readU16; exact RProg.bind_error (cur_readExact_eof h)
  by_cases h10 : 10 ≤ m.length - q
  · obtain ⟨v, hv, hvn⟩ := run_readU32 (m := m) (p := q + 2 + 2) (by omega)
    have e10 : q + 2 + 2 + 4 + 2 = q + 10 := by omega
    have hpos : (UInt16.ofNat (q + 2 + 2 + 4 + 2)).toNat = q + 10 := ofNat16_toNat (by omega)
    have hrd : (UInt16.ofNat (word m (q + 2 + 2 + 4))).toNat = word m (q + 8) := ofNat16_toNat (word_lt ..)
    have ht : (UInt16.ofNat (word m q)).toNat = word m q := ofNat16_toNat (word_lt ..)
    obtain ⟨d1, d2⟩ := run_readRData m (q + 2 + 2 + 4 + 2) (UInt16.ofNat (word m q))
    rw [ht] at d1 d2
    have run : tail.run cursorOps ⟨m, q⟩ = _ :=
      (RProg.bind_ok (run_readU16 (by omega))).trans <| (RProg.bind_ok (run_readU16 (by omega))).trans <|
      (RProg.bind_ok hv).trans <| (RProg.bind_ok (run_readU16 (by omega))).trans <|
      (RProg.bind_ok (cur_streamPosition m (q + 2 + 2 + 4 + 2)))
    by_cases hd : q + 2 + 2 + 4 + 2 + needed (word m q) ≤ m.length ∨ needed (word m q) = 0
    · obtain ⟨d, hd1, hd2⟩ := d1 hd
      rw [e10] at hd1
      rw [RProg.bind_ok hd2] at run
      by_cases h0 : word m (q + 8) = 0
      · have hz : UInt16.ofNat (word m (q + 2 + 2 + 4)) = 0 := u16_ext (by rw [hrd, h0]; rfl)
        have hs : (skipRData (UInt16.ofNat (q + 2 + 2 + 4 + 2)) (UInt16.ofNat (word m (q + 2 + 2 + 4)))).run cursorOps
            ⟨m, q + 2 + 2 + 4 + 2 + needed (word m q)⟩ = (.ok (), ⟨m, q + 2 + 2 + 4 + 2 + needed (word m q)⟩) := by
          unfold skipRData; rw [hz]; rfl
        rw [RProg.bind_ok hs] at run
        rw [if_pos (by rw [h0]; omega)]
        refine ⟨⟨name, Qtype.tryFrom (UInt16.ofNat (word m q)), Qclass.tryFrom (UInt16.ofNat (word m (q + 2))), v, d⟩,
          ?_, rfl, rfl, rfl, hvn, hd1⟩
        rw [run, if_pos h0]; rfl
      · have hz : UInt16.ofNat (word m (q + 2 + 2 + 4)) ≠ 0 := fun h => h0 (by rw [← hrd, h]; rfl)
        have hsat := satAdd16_toNat (UInt16.ofNat (q + 2 + 2 + 4 + 2)) (UInt16.ofNat (word m (q + 2 + 2 + 4)))
        rw [hpos, hrd] at hsat
        by_cases hl : q + 10 + word m (q + 8) ≤ m.length
        · have hs : (skipRData (UInt16.ofNat (q + 2 + 2 + 4 + 2)) (UInt16.ofNat (word m (q + 2 + 2 + 4)))).run cursorOps
              ⟨m, q + 2 + 2 + 4 + 2 + needed (word m q)⟩ = (.ok (), ⟨m, q + 10 + word m (q + 8)⟩) := by
            unfold skipRData
            rw [if_pos hz, cur_seekStart (by omega), hsat, Nat.min_eq_left (by omega)]
          rw [RProg.bind_ok hs] at run
          rw [if_pos (by omega)]
          refine ⟨⟨name, Qtype.tryFrom (UInt16.ofNat (word m q)), Qclass.tryFrom (UInt16.ofNat (word m (q + 2))), v, d⟩,
          ?_, rfl, rfl, rfl, hvn, hd1⟩
          rw [run, if_neg h0]; rfl
        · have hs : (skipRData (UInt16.ofNat (q + 2 + 2 + 4 + 2)) (UInt16.ofNat (word m (q + 2 + 2 + 4)))).run cursorOps
              ⟨m, q + 2 + 2 + 4 + 2 + needed (word m q)⟩ = (.error .unexpectedEof, ⟨m, q + 2 + 2 + 4 + 2 + needed (word m q)⟩) := by
            unfold skipRData
            rw [if_pos hz, cur_seekStart_eof (by omega)]
          rw [RProg.bind_error hs] at run
          rw [if_neg (by omega)]
          exact ⟨_, run⟩
    · obtain ⟨c, hc⟩ := d2 hd
      rw [RProg.bind_error hc] at run
      rw [if_neg (by omega)]
      exact ⟨_, run⟩
  · rw [if_neg (by omega)]
    by_cases a : 2 ≤ m.length - q
    · have r1 : tail.run cursorOps ⟨m, q⟩ = _ := RProg.bind_ok (run_readU16 a)
      by_cases b : 2 ≤ m.length - (q + 2)
      · rw [RProg.bind_ok (run_readU16 b)] at r1
        by_cases c : 4 ≤ m.length - (q + 2 + 2)
        · obtain ⟨v, hv, hvn⟩ := run_readU32 c
          rw [RProg.bind_ok hv, RProg.bind_error (eof16 (p := q + 2 + 2 + 4) (by omega))] at r1
          exact ⟨_, r1⟩
        · have : readU32.run cursorOps ⟨m, q + 2 + 2⟩ = (.error .unexpectedEof, ⟨m, q + 2 + 2⟩) := by
            unfold readU32; exact RProg.bind_error (cur_readExact_eof c)
          rw [RProg.bind_error this] at r1
          exact ⟨_, r1⟩
      · rw [RProg.bind_error (eof16 b)] at r1
        exact ⟨_, r1⟩
    · exact ⟨_, RProg.bind_error (eof16 a)⟩

/-- C30, decoding a record: if the name at `p` is decoded as `name` and ends at `q`, then the record is
decoded exactly when its fixed fields, the address or service data its type calls for, and as many bytes
as its data length says, lie within the message (otherwise the result is `UnexpectedEof`); the fields are
those encoded at `q`; and, unless the data length is 0, the stream is left right after the record. -/
theorem C30_record_partial (m : Bytes) (p q : Nat) (name : Option Bytes) (cap fuel : Nat) (hm : m.length < 65535)
    (hn : (readLabels fuel cap).run cursorOps ⟨m, p⟩ = (.ok name, ⟨m, q⟩)) :
    if q + 10 + max (needed (word m q)) (word m (q + 8)) ≤ m.length then
      ∃ rr c, (readRr fuel cap).run cursorOps ⟨m, p⟩ = (.ok rr, ⟨m, c⟩) ∧
        rr.name = name ∧ rr.qtype = Qtype.tryFrom (UInt16.ofNat (word m q)) ∧
        rr.class_ = Qclass.tryFrom (UInt16.ofNat (word m (q + 2))) ∧ rr.ttl.toNat = long m (q + 4) ∧
        DataAt m (q + 10) (word m q) rr.rdata ∧ (word m (q + 8) ≠ 0 → c = q + 10 + word m (q + 8)) ∧
        (needed (word m q) = 0 → c = q + 10 + word m (q + 8))
    else ∃ c, (readRr fuel cap).run cursorOps ⟨m, p⟩ = (.error .unexpectedEof, c) := by
  have key := run_afterName m q name hm
  unfold readRr
  rw [RProg.bind_ok hn]
  dsimp only at key
  split at key
  · rename_i h
    obtain ⟨rr, h1, h2, h3, h4, h5, h6⟩ := key
    rw [if_pos h]
    refine ⟨rr, _, h1, h2, h3, h4, h5, h6, fun h0 => by rw [if_neg h0], fun hd => ?_⟩
    split
    · rename_i h0; rw [hd, h0]
    · rfl
  · rename_i h
    rw [if_neg h]
    exact key

/-- C30 does not hold for records with empty data and a type that calls for data: for the message below
(root name, type A, class IN, TTL 0, data length 0, then 4 bytes which are not part of the record) the 4
bytes after the record are taken for its address and the stream is left after them. -/
theorem C30_empty_data_partial :
    let m : Bytes := [0, 0, 1, 0, 1, 0, 0, 0, 0, 0, 0, 9, 9, 9, 9]
    word m 9 = 0 ∧ (readRr 1 0).run cursorOps ⟨m, 0⟩
      = (.ok ⟨some [], .ok .A, .ok .IN, 0, .A ⟨9, 9, 9, 9⟩⟩, ⟨m, 15⟩) := by decide

/-- An A record: name `a`, TTL 60, address 10.0.0.1; followed by one byte. -/
example : (readRr 2 5).run cursorOps ⟨[1, 97, 0, 0, 1, 0, 1, 0, 0, 0, 60, 0, 4, 10, 0, 0, 1, 7], 0⟩
    = (.ok ⟨some [97], .ok .A, .ok .IN, 60, .A ⟨10, 0, 0, 1⟩⟩,
        ⟨[1, 97, 0, 0, 1, 0, 1, 0, 0, 0, 60, 0, 4, 10, 0, 0, 1, 7], 17⟩) := by decide

/-- C30 for RFC 1035 messages: a well-formed record (name at `p` ending at `q`, whole record within the
message, at least the data its type calls for) is decoded to its name (if it fits the buffer and is UTF-8)
and fields, and the stream is left right after it. -/
theorem C30_valid_record (m : Bytes) (p : Nat) (ls : List Bytes) (q n : Nat) (h : NameAt m p ls q n)
    (hm : m.length < 65535) (cap fuel : Nat) (hf : n ≤ fuel) (hlen : q + 10 + word m (q + 8) ≤ m.length)
    (hneed : needed (word m q) ≤ word m (q + 8)) :
    ∃ rr, (readRr fuel cap).run cursorOps ⟨m, p⟩ = (.ok rr, ⟨m, q + 10 + word m (q + 8)⟩) ∧
      rr.name = (if ([46].intercalate ls).length ≤ cap ∧ utf8Valid ([46].intercalate ls) = true
        then some ([46].intercalate ls) else none) ∧
      rr.qtype = Qtype.tryFrom (UInt16.ofNat (word m q)) ∧ rr.class_ = Qclass.tryFrom (UInt16.ofNat (word m (q + 2))) ∧
      rr.ttl.toNat = long m (q + 4) ∧ DataAt m (q + 10) (word m q) rr.rdata := by
  have key := C30_record_partial m p q _ cap fuel hm (C28_read_name m p ls q n h (by omega) (by omega) cap fuel hf)
  rw [if_pos (by omega)] at key
  obtain ⟨rr, c, h1, h2, h3, h4, h5, h6, h7, h8⟩ := key
  refine ⟨rr, ?_, h2, h3, h4, h5, h6⟩
  by_cases h0 : word m (q + 8) = 0
  · rw [← h8 (by omega)]; exact h1
  · rw [← h7 h0]; exact h1

/-- The hypotheses hold of the A record above. -/
example : let m : Bytes := [1, 97, 0, 0, 1, 0, 1, 0, 0, 0, 60, 0, 4, 10, 0, 0, 1, 7]
    NameAt m 0 [[97]] 3 2 ∧ 3 + 10 + word m (3 + 8) ≤ m.length ∧ needed (word m 3) ≤ word m (3 + 8) :=
  ⟨.label (b := 1) rfl (by decide) (by decide) (by decide) (.root rfl), by decide, by decide⟩

/-! ### How many records a response yields -/

/-- The results of `n` calls of `next_rr`. -/
def nextResults (fuel : Nat) (b : Bus σ) : Nat → σ × Response → List (Except Err (Option ResourceRecord))
  | 0, _ => []
  | n + 1, s => (nextRr fuel b s).1 :: nextResults fuel b n (nextRr fuel b s).2

/-- Is the result a record? -/
def isRecord : Except Err (Option ResourceRecord) → Bool
  | .ok (some _) => true
  | _ => false

theorem rrCount_toNat (h : Dns.Header) :
    (rrCount h).toNat = min (h.ancount.toNat + h.nscount.toNat + h.arcount.toNat) 65535 := by
  unfold rrCount
  rw [satAdd16_toNat, satAdd16_toNat]; omega

theorem nextRr_end {fuel : Nat} {b : Bus σ} {s : σ} {r : Response} (h : rrCount r.header ≤ r.rrIdx) :
    nextRr fuel b (s, r) = (.ok none, (s, r)) := by
  unfold nextRr; exact if_pos h

theorem nextRr_go {fuel : Nat} {b : Bus σ} {s : σ} {r : Response} (h : ¬ rrCount r.header ≤ r.rrIdx) :
    nextRr fuel b (s, r) = (((readRr fuel r.cap).run (udpReaderOps b) (s, r.reader)).1.map some,
      (((readRr fuel r.cap).run (udpReaderOps b) (s, r.reader)).2.1,
       { r with reader := ((readRr fuel r.cap).run (udpReaderOps b) (s, r.reader)).2.2, rrIdx := satAdd16 r.rrIdx 1 })) := by
  unfold nextRr; exact if_neg h

theorem count_le (fuel : Nat) (b : Bus σ) (n : Nat) (s : σ) (r : Response) :
    ((nextResults fuel b n (s, r)).filter isRecord).length ≤ (rrCount r.header).toNat - r.rrIdx.toNat := by
  induction n generalizing s r with
  | zero => exact Nat.zero_le _
  | succ n ih =>
    unfold nextResults
    by_cases h : rrCount r.header ≤ r.rrIdx
    · rw [nextRr_end h, List.filter_cons_of_neg (by simp [isRecord])]
      exact ih s r
    · have hlt : r.rrIdx.toNat < (rrCount r.header).toNat := Nat.not_le.mp h
      have hidx : (satAdd16 r.rrIdx 1).toNat = r.rrIdx.toNat + 1 := by
        have := (rrCount r.header).toNat_lt
        rw [satAdd16_toNat]
        show min (r.rrIdx.toNat + 1) 65535 = _
        omega
      rw [nextRr_go h]
      have := ih ((readRr fuel r.cap).run (udpReaderOps b) (s, r.reader)).2.1
        { r with reader := ((readRr fuel r.cap).run (udpReaderOps b) (s, r.reader)).2.2, rrIdx := satAdd16 r.rrIdx 1 }
      dsimp only at this ⊢
      rw [hidx] at this
      have hl := List.length_filter_le isRecord [((readRr fuel r.cap).run (udpReaderOps b) (s, r.reader)).1.map some]
      rw [← List.singleton_append, List.filter_append, List.length_append]
      simp only [List.length_singleton] at hl
      omega

/-- C30: on any bus, however many times `next_rr` is called on a fresh response, at most as many records
come out as the header announces. -/
theorem C30_at_most_announced (fuel : Nat) (b : Bus σ) (n : Nat) (s : σ) (r : Response) :
    ((nextResults fuel b n (s, r)).filter isRecord).length
      ≤ r.header.ancount.toNat + r.header.nscount.toNat + r.header.arcount.toNat := by
  have := count_le fuel b n s r
  rw [rrCount_toNat] at this
  omega

/-- C30: after as many calls as the header announces records, `next_rr` returns `None`. -/
theorem C30_then_none (fuel : Nat) (b : Bus σ) (s : σ) (r : Response) (k : Nat)
    (hk : r.header.ancount.toNat + r.header.nscount.toNat + r.header.arcount.toNat ≤ r.rrIdx.toNat + k) :
    ∀ x ∈ (nextResults fuel b (k + 1) (s, r)).getLast?, x = .ok none := by
  induction k generalizing s r with
  | zero =>
    have h : rrCount r.header ≤ r.rrIdx := by
      show (rrCount r.header).toNat ≤ r.rrIdx.toNat
      rw [rrCount_toNat]; omega
    unfold nextResults nextResults
    rw [nextRr_end h]
    simp
  | succ k ih =>
    unfold nextResults
    have hne : nextResults fuel b (k + 1) (nextRr fuel b (s, r)).2 ≠ [] := by unfold nextResults; simp
    rw [List.getLast?_cons_of_ne_nil hne]
    by_cases h : rrCount r.header ≤ r.rrIdx
    · rw [nextRr_end h]
      have hh : (rrCount r.header).toNat ≤ r.rrIdx.toNat := h
      clear ih hk
      have : ∀ n, ∀ x ∈ nextResults fuel b n (s, r), x = .ok none := by
        intro n
        induction n with
        | zero => intro x hx; exact absurd hx nofun
        | succ n ih2 =>
          unfold nextResults
          rw [nextRr_end h]
          intro x hx
          rcases List.mem_cons.mp hx with rfl | hx
          · rfl
          · exact ih2 x hx
      intro x hx
      exact this _ x (List.mem_of_getLast? hx)
    · have hlt : r.rrIdx.toNat < (rrCount r.header).toNat := Nat.not_le.mp h
      have hidx : (satAdd16 r.rrIdx 1).toNat = r.rrIdx.toNat + 1 := by
        have := (rrCount r.header).toNat_lt
        rw [satAdd16_toNat]
        show min (r.rrIdx.toNat + 1) 65535 = _
        omega
      rw [nextRr_go h]
      refine ih _ _ ?_
      dsimp only
      rw [hidx]
      omega

/-! ## C27 -/

/-- The datagram is a response, to the query with identifier `id` if one is given: at least a header, QR
bit set, same identifier (RFC 1035 section 4.1.1). -/
def IsResponse (id : Option UInt16) (m : Bytes) : Prop :=
  12 ≤ m.length ∧ 128 ≤ (m.getD 2 0).toNat ∧ ∀ i, id = some i → word m 0 = i.toNat

theorem take12 {m : Bytes} (h : 12 ≤ m.length) : ∃ a b c d e f g h' i j k l rest,
    m = a :: b :: c :: d :: e :: f :: g :: h' :: i :: j :: k :: l :: rest := by
  match m, h with
  | a :: b :: c :: d :: e :: f :: g :: h' :: i :: j :: k :: l :: rest, _ => exact ⟨a, b, c, d, e, f, g, h', i, j, k, l, rest, rfl⟩

theorem qr_bit (b : UInt8) : (!(b &&& 0x80 == 0x00)) = decide (128 ≤ b.toNat) :=
  forall_u8 (p := fun b => (!(b &&& 0x80 == 0x00)) = decide (128 ≤ b.toNat)) (by decide +kernel) b

theorem be16_eq_iff (a b : UInt8) (i : UInt16) : be16 a b = i ↔ num a b = i.toNat := by
  unfold num
  rw [← be16_toNat]
  exact ⟨fun h => by rw [h], u16_ext⟩

theorem run_responseProg_drop (fuel : Nat) (id : Option UInt16) (m : Bytes) (h : ¬ IsResponse id m) :
    ∃ c, (responseProg fuel id).run cursorOps ⟨m, 0⟩ = (.ok none, c) := by
  unfold responseProg
  rw [RProg.bind_ok (cur_read 12 m 0)]
  by_cases h12 : 12 ≤ m.length
  · obtain ⟨b0, b1, b2, b3, b4, b5, b6, b7, b8, b9, b10, b11, rest, rfl⟩ := take12 h12
    rw [if_neg (by simp)]
    dsimp only [List.drop, List.take, Header.ofBytes]
    by_cases hq : 128 ≤ b2.toNat
    · have hq' : (⟨b0, b1, b2, b3, b4, b5, b6, b7, b8, b9, b10, b11⟩ : Dns.Header).qr = true := by
        unfold Header.qr; rw [qr_bit]; simpa using hq
      rw [hq', if_neg (by simp)]
      rw [if_pos]
      · exact ⟨_, rfl⟩
      · rcases id with _ | i
        · exact absurd ⟨h12, hq, nofun⟩ h
        · refine ⟨nofun, fun he => h ⟨h12, hq, fun j hj => ?_⟩⟩
          injection he with he
          injection hj with hj
          exact (be16_eq_iff b0 b1 j).mp (he.symm.trans hj)
    · have hq' : (⟨b0, b1, b2, b3, b4, b5, b6, b7, b8, b9, b10, b11⟩ : Dns.Header).qr = false := by
        unfold Header.qr; rw [qr_bit]; simpa using hq
      rw [hq', if_pos rfl]
      exact ⟨_, rfl⟩
  · rw [if_pos (by simp; omega)]
    exact ⟨_, rfl⟩

theorem run_responseProg (fuel : Nat) (id : Option UInt16) (m : Bytes) (h : IsResponse id m) :
    ∃ hd : Dns.Header, hd.asBytes = m.take 12 ∧ (responseProg fuel id).run cursorOps ⟨m, 0⟩
      = (skipQuestions fuel (word m 4) >>= fun _ => pure (some hd)).run cursorOps ⟨m, 12⟩ := by
  obtain ⟨h12, hq, hi⟩ := h
  obtain ⟨b0, b1, b2, b3, b4, b5, b6, b7, b8, b9, b10, b11, rest, rfl⟩ := take12 h12
  refine ⟨⟨b0, b1, b2, b3, b4, b5, b6, b7, b8, b9, b10, b11⟩, rfl, ?_⟩
  unfold responseProg
  rw [RProg.bind_ok (cur_read 12 _ 0), if_neg (by simp)]
  dsimp only [List.drop, List.take, Header.ofBytes]
  have hq' : (⟨b0, b1, b2, b3, b4, b5, b6, b7, b8, b9, b10, b11⟩ : Dns.Header).qr = true := by
    unfold Header.qr; rw [qr_bit]; simpa using hq
  rw [hq', if_neg (by simp), if_neg]
  · have : (⟨b0, b1, b2, b3, b4, b5, b6, b7, b8, b9, b10, b11⟩ : Dns.Header).qdcount.toNat
        = word (b0 :: b1 :: b2 :: b3 :: b4 :: b5 :: b6 :: b7 :: b8 :: b9 :: b10 :: b11 :: rest) 4 := by
      unfold Header.qdcount; rw [be16_toNat]; rfl
    rw [this]
    have : min 12 ((b0 :: b1 :: b2 :: b3 :: b4 :: b5 :: b6 :: b7 :: b8 :: b9 :: b10 :: b11 :: rest).length - 0) = 12 := by
      simp
    rfl
  · rintro ⟨h1, h2⟩
    rcases id with _ | i
    · exact h1 rfl
    · apply h2
      have := hi i rfl
      exact congrArg some ((be16_eq_iff b0 b1 i).mpr this).symm

/-- C27: when the next datagram waiting on the socket is not a response (with the expected identifier),
`response` reports `WouldBlock` and has removed exactly that datagram. -/
theorem C27_not_a_response (dbg : Bool) (fuel : Nat) (sn : Sn) (cap : Nat) (id : Option UInt16) (p : Nat) (w w1 : World)
    (u : UdpReader) (g : Datagram) (rest : Bytes) (h : RxState w.chip sn.toU8.toNat p) (hg : g.payload.length < 65536)
    (hq : w.chip.unread sn.toU8.toNat = udpFrame g.src g.payload ++ rest)
    (hu : udpReader dbg worldBus sn w = (.ok u, w1)) (hr : ¬ IsResponse id g.payload) :
    ∃ w2, response dbg fuel worldBus sn cap id w = (.error .wouldBlock, w2) ∧
      RxState w2.chip sn.toU8.toNat (p + (8 + g.payload.length)) := by
  obtain ⟨_, key⟩ := C17_udp_reader dbg sn p w w1 u g rest h hg hq hu
  obtain ⟨k1, k2, k3, k4, w2, k5, k6⟩ := key (responseProg fuel id)
  obtain ⟨c, hc⟩ := run_responseProg_drop fuel id g.payload hr
  rw [hc] at k1
  refine ⟨w2, ?_, k6⟩
  unfold response
  rw [M.bind_ok hu]
  rcases e : (responseProg fuel id).run (udpReaderOps worldBus) (w1, u) with ⟨x, w', u'⟩
  rw [e] at k1 k5
  dsimp only at k1 k5
  have : onUdpReader worldBus u (responseProg fuel id) w1 = (.ok (none, u'), w') := by
    unfold onUdpReader; rw [e, k1]
  rw [M.bind_ok this]
  dsimp only
  rw [M.bind_ok k5]
  rfl

/-- C27: when the next datagram is a response with the expected identifier, `response` succeeds exactly when the
questions can be skipped; nothing is removed from the socket; the header returned is the datagram's, its
QR bit is set and its identifier is the expected one; the reader stands after the questions. -/
theorem C27_response (dbg : Bool) (fuel : Nat) (sn : Sn) (cap : Nat) (id : Option UInt16) (p : Nat) (w w1 : World)
    (u : UdpReader) (g : Datagram) (rest : Bytes) (h : RxState w.chip sn.toU8.toNat p) (hg : g.payload.length < 65536)
    (hq : w.chip.unread sn.toU8.toNat = udpFrame g.src g.payload ++ rest)
    (hu : udpReader dbg worldBus sn w = (.ok u, w1)) (hr : IsResponse id g.payload) :
    let skipped := (skipQuestions fuel (word g.payload 4)).run cursorOps ⟨g.payload, 12⟩
    (∀ e, skipped.1 = .error e → ∃ w2, response dbg fuel worldBus sn cap id w = (.error e, w2) ∧
      RxState w2.chip sn.toU8.toNat p) ∧
    (skipped.1 = .ok () → ∃ r w2, response dbg fuel worldBus sn cap id w = (.ok r, w2) ∧
      RxState w2.chip sn.toU8.toNat p ∧ r.header.asBytes = g.payload.take 12 ∧ r.cap = cap ∧ r.rrIdx = 0 ∧
      r.reader.inner.streamPosition.toNat = skipped.2.pos ∧
      ∃ w3, responseDone worldBus r w2 = (.ok (), w3) ∧ RxState w3.chip sn.toU8.toNat (p + (8 + g.payload.length))) := by
  intro skipped
  obtain ⟨_, key⟩ := C17_udp_reader dbg sn p w w1 u g rest h hg hq hu
  obtain ⟨k1, k2, k3, k4, w3, k5, k6⟩ := key (responseProg fuel id)
  obtain ⟨hd, hd1, hd2⟩ := run_responseProg fuel id g.payload hr
  rcases e : (responseProg fuel id).run (udpReaderOps worldBus) (w1, u) with ⟨x, w', u'⟩
  rw [e] at k1 k2 k4 k5
  rw [hd2, RProg.run_bind, M.bind_run] at k1 k2
  rcases hs : (skipQuestions fuel (word g.payload 4)).run cursorOps ⟨g.payload, 12⟩ with ⟨er | un, c⟩
  · rw [hs] at k1 k2
    dsimp only at k1 k2 k4 k5
    have hrun : onUdpReader worldBus u (responseProg fuel id) w1 = (.error er, w') := by
      unfold onUdpReader; rw [e, k1]
    refine ⟨fun e' he => ?_, fun he => ?_⟩
    · have : er = e' := by
        have h2 : skipped.1 = .error er := by show ((skipQuestions _ _).run cursorOps _).1 = _; rw [hs]
        rw [h2] at he; injection he
      subst this
      refine ⟨w', ?_, k4⟩
      unfold response
      rw [M.bind_ok hu, M.bind_error hrun]
    · have h2 : skipped.1 = .error er := by show ((skipQuestions _ _).run cursorOps _).1 = _; rw [hs]
      rw [h2] at he; exact absurd he nofun
  · rw [hs] at k1 k2
    change x = .ok (some hd) at k1
    change u'.inner.streamPosition.toNat = c.pos at k2
    dsimp only at k4 k5
    have h2 : skipped = (.ok (), c) := hs
    have hrun : onUdpReader worldBus u (responseProg fuel id) w1 = (.ok (some hd, u'), w') := by
      unfold onUdpReader; rw [e, k1]
    refine ⟨fun e' he => ?_, fun _ => ⟨⟨u', hd, cap, 0⟩, w', ?_, k4, hd1, rfl, rfl, by rw [h2]; exact k2, w3, k5, k6⟩⟩
    · rw [h2] at he; exact absurd he nofun
    · unfold response
      rw [M.bind_ok hu, M.bind_ok hrun]
      rfl

/-- C27, read backwards: whenever `response` succeeds, the header returned carries the identifier asked
for and the QR bit, and is the start of the datagram that waits on the socket. -/
theorem C27_success (dbg : Bool) (fuel : Nat) (sn : Sn) (cap : Nat) (id : Option UInt16) (p : Nat) (w w2 : World)
    (r : Response) (g : Datagram) (rest : Bytes) (h : RxState w.chip sn.toU8.toNat p) (hg : g.payload.length < 65536)
    (hq : w.chip.unread sn.toU8.toNat = udpFrame g.src g.payload ++ rest)
    (hok : response dbg fuel worldBus sn cap id w = (.ok r, w2)) :
    IsResponse id g.payload ∧ r.header.asBytes = g.payload.take 12 ∧ RxState w2.chip sn.toU8.toNat p := by
  rcases hu : udpReader dbg worldBus sn w with ⟨e | u, w1⟩
  · unfold response at hok
    rw [M.bind_error hu] at hok
    exact absurd hok nofun
  · by_cases hr : IsResponse id g.payload
    · obtain ⟨k1, k2⟩ := C27_response dbg fuel sn cap id p w w1 u g rest h hg hq hu hr
      rcases hs : ((skipQuestions fuel (word g.payload 4)).run cursorOps ⟨g.payload, 12⟩).1 with e | _
      · obtain ⟨w', h', _⟩ := k1 e hs
        rw [h'] at hok; exact absurd hok nofun
      · obtain ⟨r', w', h', a, b, _⟩ := k2 hs
        rw [h'] at hok
        injection hok with e1 e2
        injection e1 with e1
        subst e1; subst e2
        exact ⟨hr, b, a⟩
    · obtain ⟨w', h', _⟩ := C27_not_a_response dbg fuel sn cap id p w w1 u g rest h hg hq hu hr
      rw [h'] at hok; exact absurd hok nofun

/-- The answer count and response code reported are the header's fields (RFC 1035 section 4.1.1). -/
theorem C27_header_fields (r : Response) (m : Bytes) (hm : 12 ≤ m.length) (h : r.header.asBytes = m.take 12) :
    r.answerCount.toNat = word m 6 ∧
    ∀ c, r.responseCode = .ok c ↔ (m.getD 3 0).toNat % 16 = c.code.toNat := by
  obtain ⟨b0, b1, b2, b3, b4, b5, b6, b7, b8, b9, b10, b11, rest, rfl⟩ := take12 hm
  obtain ⟨rd, ⟨a0, a1, a2, a3, a4, a5, a6, a7, a8, a9, a10, a11⟩, cap, idx⟩ := r
  unfold Header.asBytes at h
  simp only [List.take_succ_cons, List.take_zero, List.cons.injEq, and_true] at h
  obtain ⟨rfl, rfl, rfl, rfl, rfl, rfl, rfl, rfl, rfl, rfl, rfl, rfl⟩ := h
  constructor
  · unfold Response.answerCount Header.ancount; rw [be16_toNat]; rfl
  · intro c
    show ResponseCode.tryFrom (a3 &&& 0xF) = .ok c ↔ a3.toNat % 16 = c.code.toNat
    have e : (a3 &&& 0xF).toNat = a3.toNat % 16 := by
      have : (a3 &&& 0xF).toNat = a3.toNat &&& 15 := UInt8.toNat_and _ _
      rw [this, show 15 = 2 ^ 4 - 1 by rfl, Nat.and_two_pow_sub_one_eq_mod]
    rw [← e]
    constructor
    · intro h; rw [C31_response_codes.exact _ _ h]
    · intro h; rw [show a3 &&& 0xF = c.code from UInt8.toNat_inj.mp h]; exact C31_response_codes.roundtrip c

/-- C29 does not hold of `response` either: a datagram that carries the expected identifier and one
question whose name is a pointer to itself keeps the client busy forever. -/
theorem C29_response_never_returns_partial (dbg : Bool) (fuel : Nat) (sn : Sn) (cap : Nat) (id : UInt16) (p : Nat) (w w1 : World)
    (u : UdpReader) (src : SockAddr) (rest : Bytes) (h : RxState w.chip sn.toU8.toNat p)
    (hq : w.chip.unread sn.toU8.toNat = udpFrame src
      [(id >>> 8).toUInt8, id.toUInt8, 0x80, 0, 0, 1, 0, 0, 0, 0, 0, 0, 0xC0, 0x0C, 0, 1, 0, 1] ++ rest)
    (hu : udpReader dbg worldBus sn w = (.ok u, w1)) :
    (response dbg fuel worldBus sn cap (some id) w).1 = .error .hang := by
  have hr : IsResponse (some id) [(id >>> 8).toUInt8, id.toUInt8, 0x80, 0, 0, 1, 0, 0, 0, 0, 0, 0, 0xC0, 0x0C, 0, 1, 0, 1] := by
    refine ⟨by simp, by show 128 ≤ (0x80 : UInt8).toNat; decide, fun i hi => ?_⟩
    injection hi with hi; subst hi
    show num (id >>> 8).toUInt8 id.toUInt8 = _
    unfold num; rw [hi_toNat, lo_toNat]; omega
  obtain ⟨k, -⟩ := C27_response dbg fuel sn cap (some id) p w w1 u ⟨src, _⟩ rest h (by simp) hq hu hr
  have hang : ∀ (a b : UInt8) cap, ((readLabels fuel cap).run cursorOps
      ⟨[a, b, 0x80, 0, 0, 1, 0, 0, 0, 0, 0, 0, 0xC0, 0x0C, 0, 1, 0, 1], 12⟩).1 = .error .hang := by
    intro a b cap
    unfold readLabels
    rw [hang_iff]
    have : ∀ n, after [a, b, 0x80, 0, 0, 1, 0, 0, 0, 0, 0, 0, 0xC0, 0x0C, 0, 1, 0, 1] 12 n = some 12 := by
      intro n
      induction n with
      | zero => rfl
      | succ n ih => exact ih
    rw [this]; rfl
  obtain ⟨w2, hw2, _⟩ := k .hang (by
    rw [show word [(id >>> 8).toUInt8, id.toUInt8, 0x80, 0, 0, 1, 0, 0, 0, 0, 0, 0, 0xC0, 0x0C, 0, 1, 0, 1] 4 = 0 + 1 from
        (show num 0 1 = 0 + 1 by decide),
      skipQuestions]
    rcases e : (readLabels fuel 0).run cursorOps
      ⟨[(id >>> 8).toUInt8, id.toUInt8, 0x80, 0, 0, 1, 0, 0, 0, 0, 0, 0, 0xC0, 0x0C, 0, 1, 0, 1], 12⟩ with ⟨x, c⟩
    have hx := hang (id >>> 8).toUInt8 id.toUInt8 0
    rw [e] at hx
    dsimp only at hx
    subst hx
    rw [RProg.bind_error e])
  rw [hw2]

/-- With nothing waiting (or less than a whole datagram header), `response` reports `WouldBlock`, or the
error of the bus. -/
theorem C27_nothing_waiting (dbg : Bool) (fuel : Nat) (b : Bus σ) (sn : Sn) (cap : Nat) (id : Option UInt16) (s s' : σ) (e : Err)
    (hu : udpReader dbg b sn s = (.error e, s')) : response dbg fuel b sn cap id s = (.error e, s') := by
  unfold response
  rw [M.bind_error hu]

/-- A header with identifier 7, QR set and no counts is a response to query 7, and not to query 8. -/
example : IsResponse (some 7) [0, 7, 0x80, 0, 0, 0, 0, 0, 0, 0, 0, 0] ∧
    ¬ IsResponse (some 8) [0, 7, 0x80, 0, 0, 0, 0, 0, 0, 0, 0, 0] :=
  ⟨⟨by decide, by decide, fun i h => by injection h with h; subst h; rfl⟩, fun h => absurd (h.2.2 8 rfl) (by decide)⟩

/-! ### The records of the datagram -/

/-- Run a program and return its result as a value. -/
def attempt : RProg α → RProg (Except Err α)
  | .ret r => .ret (.ok r)
  | .read n k => .read n fun r => attempt (k r)
  | .readExact n k => .readExact n fun r => attempt (k r)
  | .seek pos k => .seek pos fun r => attempt (k r)
  | .rewind k => .rewind (attempt k)
  | .streamLen k => .streamLen fun r => attempt (k r)
  | .streamPosition k => .streamPosition fun r => attempt (k r)
  | .remain k => .remain fun r => attempt (k r)

/-- The queries of a reader that cannot fail do not fail. -/
structure Infallible (ops : Reader ρ) : Prop where
  streamLen : ∀ s, ∃ v, ops.streamLen s = (.ok v, s)
  streamPosition : ∀ s, ∃ v, ops.streamPosition s = (.ok v, s)
  remain : ∀ s, ∃ v, ops.remain s = (.ok v, s)

theorem infallible_cursor : Infallible cursorOps := ⟨fun _ => ⟨_, rfl⟩, fun _ => ⟨_, rfl⟩, fun _ => ⟨_, rfl⟩⟩

theorem infallible_udp (b : Bus σ) : Infallible (udpReaderOps b) := ⟨fun _ => ⟨_, rfl⟩, fun _ => ⟨_, rfl⟩, fun _ => ⟨_, rfl⟩⟩

theorem run_attempt {ρ : Type} {ops : Reader ρ} (hops : Infallible ops) (p : RProg α) (s : ρ) :
    (attempt p).run ops s = (.ok (p.run ops s).1, (p.run ops s).2) := by
  induction p generalizing s with
  | ret r => rfl
  | read n k ih => exact ih _ _
  | readExact n k ih => exact ih _ _
  | seek pos k ih => exact ih _ _
  | rewind k ih => exact ih _
  | streamLen k ih =>
    simp only [attempt, RProg.run, RProg.withVal]
    obtain ⟨v, hv⟩ := hops.streamLen s
    rw [hv]
    exact ih v s
  | streamPosition k ih =>
    simp only [attempt, RProg.run, RProg.withVal]
    obtain ⟨v, hv⟩ := hops.streamPosition s
    rw [hv]
    exact ih v s
  | remain k ih =>
    simp only [attempt, RProg.run, RProg.withVal]
    obtain ⟨v, hv⟩ := hops.remain s
    rw [hv]
    exact ih v s

/-- The results of `n` calls of `next_rr` on a datagram of which `k` records are still to come. -/
def recordResults (fuel cap : Nat) (ops : Reader ρ) : Nat → Nat → ρ → List (Except Err (Option ResourceRecord))
  | _, 0, _ => []
  | 0, n + 1, s => .ok none :: recordResults fuel cap ops 0 n s
  | k + 1, n + 1, s =>
    ((readRr fuel cap).run ops s).1.map some :: recordResults fuel cap ops k n ((readRr fuel cap).run ops s).2

/-- The same as a program. -/
def recordsProg (fuel cap : Nat) : Nat → Nat → RProg (List (Except Err (Option ResourceRecord)))
  | _, 0 => pure []
  | 0, n + 1 => recordsProg fuel cap 0 n >>= fun rs => pure (.ok none :: rs)
  | k + 1, n + 1 => attempt (readRr fuel cap) >>= fun r => recordsProg fuel cap k n >>= fun rs => pure (r.map some :: rs)

theorem run_recordsProg {ρ : Type} (fuel cap : Nat) {ops : Reader ρ} (hops : Infallible ops) (k n : Nat) (s : ρ) :
    ((recordsProg fuel cap k n).run ops s).1 = .ok (recordResults fuel cap ops k n s) := by
  induction n generalizing k s with
  | zero => unfold recordsProg recordResults; cases k <;> rfl
  | succ n ih =>
    cases k with
    | zero =>
      unfold recordsProg recordResults
      have := ih 0 s
      rcases e : (recordsProg fuel cap 0 n).run ops s with ⟨x, s'⟩
      rw [e] at this
      dsimp only at this
      subst this
      rw [RProg.bind_ok e]; rfl
    | succ k =>
      unfold recordsProg recordResults
      rw [RProg.bind_ok (run_attempt hops _ s)]
      have := ih k ((readRr fuel cap).run ops s).2
      rcases e : (recordsProg fuel cap k n).run ops ((readRr fuel cap).run ops s).2 with ⟨x, s'⟩
      rw [e] at this
      dsimp only at this
      subst this
      rw [RProg.bind_ok e]; rfl

theorem nextResults_eq (fuel : Nat) (b : Bus σ) (n : Nat) (s : σ) (r : Response) :
    nextResults fuel b n (s, r) = recordResults fuel r.cap (udpReaderOps b) ((rrCount r.header).toNat - r.rrIdx.toNat) n (s, r.reader) := by
  induction n generalizing s r with
  | zero => unfold nextResults recordResults; rfl
  | succ n ih =>
    unfold nextResults
    by_cases h : rrCount r.header ≤ r.rrIdx
    · have h0 : (rrCount r.header).toNat - r.rrIdx.toNat = 0 := by
        have : (rrCount r.header).toNat ≤ r.rrIdx.toNat := h
        omega
      rw [nextRr_end h, h0]
      have := ih s r
      rw [h0] at this
      unfold recordResults
      exact congrArg _ this
    · have hlt : r.rrIdx.toNat < (rrCount r.header).toNat := Nat.not_le.mp h
      have hidx : (satAdd16 r.rrIdx 1).toNat = r.rrIdx.toNat + 1 := by
        have := (rrCount r.header).toNat_lt
        rw [satAdd16_toNat]
        show min (r.rrIdx.toNat + 1) 65535 = _
        omega
      rw [nextRr_go h]
      obtain ⟨k, hk⟩ : ∃ k, (rrCount r.header).toNat - r.rrIdx.toNat = k + 1 := ⟨_, (Nat.succ_pred_eq_of_pos (by omega)).symm⟩
      rw [hk]
      unfold recordResults
      dsimp only
      rw [ih]
      dsimp only
      rw [hidx, show (rrCount r.header).toNat - (r.rrIdx.toNat + 1) = k by omega]

/-- C30 at the level of the client: after a successful `response` to a datagram, the results of any number
of `next_rr` calls are those of decoding that datagram's bytes, record by record from after its
questions, up to the number of records its header announces, whatever else happens to the socket in
between. -/
theorem C30_records_of_datagram (dbg : Bool) (fuel : Nat) (sn : Sn) (cap : Nat) (id : Option UInt16) (p : Nat) (w w2 : World)
    (r : Response) (g : Datagram) (rest : Bytes) (h : RxState w.chip sn.toU8.toNat p) (hg : g.payload.length < 65536)
    (hq : w.chip.unread sn.toU8.toNat = udpFrame g.src g.payload ++ rest)
    (hok : response dbg fuel worldBus sn cap id w = (.ok r, w2)) (n : Nat) :
    ∃ q, (skipQuestions fuel (word g.payload 4)).run cursorOps ⟨g.payload, 12⟩ = (.ok (), ⟨g.payload, q⟩) ∧
      nextResults fuel worldBus n (w2, r) = recordResults fuel cap cursorOps
        (min (word g.payload 6 + word g.payload 8 + word g.payload 10) 65535) n ⟨g.payload, q⟩ := by
  obtain ⟨hr, hh, _⟩ := C27_success dbg fuel sn cap id p w w2 r g rest h hg hq hok
  rcases hu : udpReader dbg worldBus sn w with ⟨e | u, w1⟩
  · unfold response at hok
    rw [M.bind_error hu] at hok
    exact absurd hok nofun
  obtain ⟨hd, hd1, hd2⟩ := run_responseProg fuel id g.payload hr
  obtain ⟨_, key⟩ := C17_udp_reader dbg sn p w w1 u g rest h hg hq hu
  obtain ⟨k1, -⟩ := key (responseProg fuel id)
  have hok' := hok
  unfold response at hok'
  rw [M.bind_ok hu] at hok'
  rcases e : (responseProg fuel id).run (udpReaderOps worldBus) (w1, u) with ⟨x, w', u'⟩
  rw [e, hd2, RProg.run_bind, M.bind_run] at k1
  rcases hs : (skipQuestions fuel (word g.payload 4)).run cursorOps ⟨g.payload, 12⟩ with ⟨er | un, c⟩
  · rw [hs] at k1
    dsimp only at k1
    have hrun : onUdpReader worldBus u (responseProg fuel id) w1 = (.error er, w') := by
      unfold onUdpReader; rw [e, k1]
    rw [M.bind_error hrun] at hok'
    exact absurd hok' nofun
  · rw [hs] at k1
    change x = .ok (some hd) at k1
    subst k1
    have hrun : onUdpReader worldBus u (responseProg fuel id) w1 = (.ok (some hd, u'), w') := by
      unfold onUdpReader; rw [e]
    rw [M.bind_ok hrun] at hok'
    change ((.ok ⟨u', hd, cap, 0⟩, w') : Except Err Response × World) = _ at hok'
    injection hok' with e1 e2
    injection e1 with e1
    subst e1; subst e2
    have hdata : c.data = g.payload := by
      have := cur_inv (skipQuestions fuel (word g.payload 4)) ⟨g.payload, 12⟩ hr.1
      rw [hs] at this
      exact this.1
    have hc : c = ⟨g.payload, c.pos⟩ := by cases c; cases hdata; rfl
    refine ⟨c.pos, by rw [← hc], ?_⟩
    rw [nextResults_eq]
    dsimp only
    have hcnt : (rrCount hd).toNat - (0 : UInt16).toNat
        = min (word g.payload 6 + word g.payload 8 + word g.payload 10) 65535 := by
      obtain ⟨b0, b1, b2, b3, b4, b5, b6, b7, b8, b9, b10, b11, rest', hm⟩ := take12 hr.1
      rw [hm] at hd1
      obtain ⟨a0, a1, a2, a3, a4, a5, a6, a7, a8, a9, a10, a11⟩ := hd
      unfold Header.asBytes at hd1
      simp only [List.take_succ_cons, List.take_zero, List.cons.injEq, and_true] at hd1
      obtain ⟨_, _, _, _, _, _, h6, h7, h8, h9, h10, h11⟩ := hd1
      rw [rrCount_toNat, hm]
      unfold Header.ancount Header.nscount Header.arcount
      rw [be16_toNat, be16_toNat, be16_toNat, h6, h7, h8, h9, h10, h11]
      rfl
    rw [hcnt]
    generalize min (word g.payload 6 + word g.payload 8 + word g.payload 10) 65535 = k
    obtain ⟨j1, -⟩ := key (responseProg fuel id >>= fun _ => recordsProg fuel cap k n)
    rw [RProg.bind_ok e, run_recordsProg _ _ (infallible_udp _), RProg.run_bind, M.bind_run, hd2, RProg.bind_ok hs] at j1
    change _ = ((recordsProg fuel cap k n).run cursorOps c).1 at j1
    rw [run_recordsProg _ _ infallible_cursor] at j1
    injection j1 with j1
    rw [j1, ← hc]

end Verif.Thm
