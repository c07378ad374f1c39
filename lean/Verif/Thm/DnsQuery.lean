import Verif.Proof.Open
import Verif.Proof.Dns
import Verif.Thm.Hostname
import Verif.Thm.Dns
/-!
# C26: queries
-/
namespace Verif.Thm
open Verif Hl Spec Dns Spec.Dns

/-! ## What the writer holds -/

/-- Labels as the client writes them. -/
def encLabels (ls : List Bytes) : Bytes := ls.flatMap fun l => UInt8.ofNat l.length :: l

/-- A question as the client writes it. -/
def encQuestion (q : Qtype × Bytes) : Bytes :=
  encLabels (hostnameLabels q.2) ++ [0, q.1.highByte, q.1.lowByte, Qclass.IN.highByte, Qclass.IN.lowByte]

/-- Questions as the client writes them. -/
def encQuestions (qs : List (Qtype × Bytes)) : Bytes := qs.flatMap encQuestion

theorem run_writeLabels {n : Nat} (ls : List Bytes) {c : Image} {out : Bytes} (h : Written c n out)
    (hfit : out.length + (encLabels ls).length ≤ n) :
    ∃ c', (writeLabels ls).run imageOps c = (.ok (), c') ∧ Written c' n (out ++ encLabels ls) := by
  induction ls generalizing c out with
  | nil => exact ⟨c, rfl, by simpa [encLabels] using h⟩
  | cons l ls ih =>
    have e : encLabels (l :: ls) = [UInt8.ofNat l.length] ++ (l ++ encLabels ls) := by simp [encLabels]
    rw [e] at hfit ⊢
    simp only [List.length_append, List.length_singleton] at hfit
    obtain ⟨c1, r1, w1⟩ := h.writeAll (bs := [UInt8.ofNat l.length]) (by simp only [List.length_singleton]; omega)
    obtain ⟨c2, r2, w2⟩ := w1.writeAll (bs := l) (by simp only [List.length_append, List.length_singleton]; omega)
    obtain ⟨c3, r3, w3⟩ := ih w2 (by simp only [List.length_append, List.length_singleton]; omega)
    refine ⟨c3, ?_, by simpa using w3⟩
    rw [writeLabels, WProg.bind_ok r1, WProg.bind_ok r2, r3]

theorem encLabels_length (ls : List Bytes) (h : ls ≠ []) :
    (encLabels ls).length = ([46].intercalate ls).length + 1 := by
  induction ls with
  | nil => exact absurd rfl h
  | cons l ls ih =>
    cases ls with
    | nil => simp [encLabels, List.intercalate]
    | cons l' ls =>
      have := ih (by simp)
      have e : encLabels (l :: l' :: ls) = UInt8.ofNat l.length :: (l ++ encLabels (l' :: ls)) := by simp [encLabels]
      rw [e]
      have e2 : [46].intercalate (l :: l' :: ls) = l ++ [46] ++ [46].intercalate (l' :: ls) := by
        simp [List.intercalate]
      rw [e2]
      simp only [List.length_cons, List.length_append, List.length_nil] at this ⊢
      omega

/-- What is used of a valid host name. -/
theorem name_facts {s : Bytes} (hv : ValidHostname s) :
    (hostnameLen s).toNat = s.length ∧ [46].intercalate (hostnameLabels s) = s ∧
      (∀ l ∈ hostnameLabels s, 1 ≤ l.length ∧ l.length ≤ 63) ∧ (encLabels (hostnameLabels s)).length = s.length + 1 ∧
      s.length ≤ 253 := by
  obtain ⟨h1, h2, h3⟩ := C20_len_and_labels s s ((C20_new_accepts_exactly s).1 hv)
  refine ⟨h1, h2, fun l hl => ⟨(h3 l hl).1, (h3 l hl).2.1⟩, ?_, hv.2.1⟩
  rw [encLabels_length, h2]
  intro h0
  rw [h0] at h2
  have := hv.1
  rw [← h2] at this
  simp [List.intercalate] at this

theorem encQuestion_length {q : Qtype × Bytes} (hv : ValidHostname q.2) : (encQuestion q).length = q.2.length + 6 := by
  unfold encQuestion
  rw [List.length_append, (name_facts hv).2.2.2.1]
  rfl

theorem run_question {n : Nat} (hn : n < 65536) (hd : Dns.Header) (q : Qtype × Bytes) (hv : ValidHostname q.2)
    {c : Image} {out : Bytes} (h : Written c n out) :
    (out.length + (encQuestion q).length ≤ n → ∃ c', (question hd q.1 q.2).run imageOps c = (.ok hd.incrementQdcount, c') ∧
      Written c' n (out ++ encQuestion q)) ∧
    (¬ out.length + (encQuestion q).length ≤ n → ∃ c', (question hd q.1 q.2).run imageOps c = (.error .outOfMemory, c')) := by
  obtain ⟨f1, f2, f3, f4, f5⟩ := name_facts hv
  have h1 := h.len; have h2 := h.pos; have h3 := h.le
  have hlen := encQuestion_length hv
  have hrem : (UInt16.ofNat (c.buf.length - c.pos)).toNat = n - out.length := by rw [ofNat16_toNat (by omega)]; omega
  have hneed : ((hostnameLen q.2).toUInt16 + 5).toNat = q.2.length + 5 := by
    rw [UInt16.toNat_add, show (hostnameLen q.2).toUInt16.toNat = (hostnameLen q.2).toNat from rfl, f1]
    show (q.2.length + 5) % 65536 = _
    omega
  unfold question
  rw [WProg.bind_ok (img_remain c)]
  constructor
  · intro hfit
    rw [if_neg (fun hlt => by
      have : (UInt16.ofNat (c.buf.length - c.pos)).toNat < ((hostnameLen q.2).toUInt16 + 5).toNat := hlt
      omega)]
    obtain ⟨c1, r1, w1⟩ := run_writeLabels (hostnameLabels q.2) h (by omega)
    obtain ⟨c2, r2, w2⟩ := w1.writeAll (bs := [0, q.1.highByte, q.1.lowByte, Qclass.IN.highByte, Qclass.IN.lowByte])
      (by simp only [List.length_append, List.length_cons, List.length_nil]; omega)
    refine ⟨c2, ?_, by unfold encQuestion; rw [← List.append_assoc]; exact w2⟩
    rw [WProg.bind_ok r1, WProg.bind_ok r2]
    rfl
  · intro hfit
    by_cases hlt : UInt16.ofNat (c.buf.length - c.pos) < (hostnameLen q.2).toUInt16 + 5
    · rw [if_pos hlt]; exact ⟨_, rfl⟩
    · rw [if_neg hlt]
      have : ¬ (UInt16.ofNat (c.buf.length - c.pos)).toNat < ((hostnameLen q.2).toUInt16 + 5).toNat := hlt
      obtain ⟨c1, r1, w1⟩ := run_writeLabels (hostnameLabels q.2) h (by omega)
      refine ⟨c1, ?_⟩
      rw [WProg.bind_ok r1, WProg.bind_error]
      exact w1.writeAll_oom (by simp only [List.length_append, List.length_cons, List.length_nil]; omega)

/-- The header of a query with `k` questions. -/
def queryHeader (id k : UInt16) : Dns.Header := ⟨(id >>> 8).toUInt8, id.toUInt8, 1, 0, (k >>> 8).toUInt8, k.toUInt8, 0, 0, 0, 0, 0, 0⟩

theorem newQuery_eq (id : UInt16) : Header.newQuery id = queryHeader id 0 := by
  unfold Header.newQuery queryHeader Header.setRd Header.setQr Header.setId
  simp

theorem queryHeader_qdcount (id k : UInt16) : (queryHeader id k).qdcount = k := by
  apply u16_ext
  unfold queryHeader Header.qdcount
  rw [be16_toNat, hi_toNat, lo_toNat]
  omega

theorem queryHeader_id (id k : UInt16) : (queryHeader id k).id = id := by
  apply u16_ext
  unfold queryHeader Header.id
  rw [be16_toNat, hi_toNat, lo_toNat]
  omega

theorem incrementQdcount_eq (id k : UInt16) (h : k.toNat < 65535) :
    (queryHeader id k).incrementQdcount = queryHeader id (k + 1) := by
  unfold Header.incrementQdcount
  rw [queryHeader_qdcount, if_neg (fun e => by rw [e] at h; exact absurd h (by decide))]
  rfl

theorem run_questions {n : Nat} (hn : n < 65536) (id : UInt16) (qs : List (Qtype × Bytes)) (hv : ∀ q ∈ qs, ValidHostname q.2)
    {c : Image} {out : Bytes} (h : Written c n out) (k : UInt16) (hk : k.toNat ≤ out.length) :
    (out.length + (encQuestions qs).length ≤ n → ∃ c',
      (questions (queryHeader id k) qs).run imageOps c = (.ok (queryHeader id (k + UInt16.ofNat qs.length)), c') ∧
      k.toNat + qs.length < 65536 ∧ Written c' n (out ++ encQuestions qs)) ∧
    (¬ out.length + (encQuestions qs).length ≤ n → ∃ c',
      (questions (queryHeader id k) qs).run imageOps c = (.error .outOfMemory, c')) := by
  induction qs generalizing c out k with
  | nil =>
    have h2 := h.pos; have h3 := h.le
    refine ⟨fun _ => ⟨c, ?_, by simp; omega, by simpa [encQuestions] using h⟩, fun hfit => absurd ?_ hfit⟩
    · show ((.ok (queryHeader id k), c) : Except Err Dns.Header × Image) = _
      simp
    · simp [encQuestions]; omega
  | cons q qs ih =>
    have e : encQuestions (q :: qs) = encQuestion q ++ encQuestions qs := by simp [encQuestions]
    have hl := encQuestion_length (hv q (by simp))
    obtain ⟨a1, a2⟩ := run_question hn (queryHeader id k) q (hv q (by simp)) h
    rw [e, List.length_append]
    rw [questions]
    by_cases hq : out.length + (encQuestion q).length ≤ n
    · obtain ⟨c1, r1, w1⟩ := a1 hq
      rw [WProg.bind_ok r1, incrementQdcount_eq _ _ (by omega)]
      have hk1 : (k + 1).toNat = k.toNat + 1 := by
        rw [UInt16.toNat_add]; show (k.toNat + 1) % 65536 = _; omega
      obtain ⟨i1, i2⟩ := ih (fun q' hq' => hv q' (List.mem_cons_of_mem _ hq')) w1 (k + 1)
        (by rw [hk1, List.length_append]; omega)
      rw [List.length_append] at i1 i2
      constructor
      · intro hfit
        obtain ⟨c2, r2, j2, w2⟩ := i1 (by omega)
        refine ⟨c2, ?_, by rw [hk1] at j2; simp only [List.length_cons]; omega, by rw [← List.append_assoc]; exact w2⟩
        rw [r2]
        have : k + 1 + UInt16.ofNat qs.length = k + UInt16.ofNat (q :: qs).length := by
          rw [List.length_cons, UInt16.ofNat_add, UInt16.add_assoc, UInt16.add_comm 1]
          rfl
        rw [this]
      · intro hfit; exact i2 (by omega)
    · obtain ⟨c1, r1⟩ := a2 hq
      refine ⟨fun hfit => absurd hfit (by omega), fun _ => ⟨c1, ?_⟩⟩
      rw [WProg.bind_error r1]

/-- The bytes of a query. -/
def encQuery (id : UInt16) (qs : List (Qtype × Bytes)) : Bytes :=
  (queryHeader id (UInt16.ofNat qs.length)).asBytes ++ encQuestions qs

theorem run_queryProg {buf : Bytes} (hn : buf.length < 65536) (id : UInt16) (qs : List (Qtype × Bytes))
    (hv : ∀ q ∈ qs, ValidHostname q.2) (hq : qs ≠ []) :
    ((encQuery id qs).length ≤ buf.length → ∃ c,
      (queryProg id qs).run imageOps ⟨buf, 0⟩ = (.ok (queryHeader id (UInt16.ofNat qs.length)), c) ∧
      qs.length < 65536 ∧ c.buf.take c.pos = encQuery id qs) ∧
    (¬ (encQuery id qs).length ≤ buf.length → ∃ e c, (e = .outOfMemory ∨ e = .unexpectedEof) ∧
      (queryProg id qs).run imageOps ⟨buf, 0⟩ = (.error e, c)) := by
  have hlen : (encQuery id qs).length = 12 + (encQuestions qs).length := by
    unfold encQuery; rw [List.length_append]; rfl
  have hL : Header.LEN.toNat = 12 := rfl
  rw [hlen]
  unfold queryProg
  by_cases h12 : 12 ≤ buf.length
  · rw [WProg.bind_ok (img_seekStart (o := Header.LEN) (c := ⟨buf, 0⟩) (by rw [hL]; exact h12)), hL, newQuery_eq]
    have hw : Written ⟨buf, 12⟩ buf.length (buf.take 12) := ⟨rfl, by simp; omega, h12, rfl⟩
    have htl : (buf.take 12).length = 12 := by simp; omega
    obtain ⟨a1, a2⟩ := run_questions hn id qs hv hw 0 (by show 0 ≤ _; omega)
    rw [htl] at a1 a2
    constructor
    · intro hfit
      obtain ⟨c1, r1, hqs, w1⟩ := a1 hfit
      have hqs' : qs.length < 65536 := by
        have : (0 : UInt16).toNat = 0 := rfl
        omega
      have h0 : (0 : UInt16) + UInt16.ofNat qs.length = UInt16.ofNat qs.length := by simp
      rw [h0] at r1
      have hpos := w1.pos; have hblen := w1.len; have hle := w1.le; have hout := w1.out
      rw [List.length_append, htl] at hpos
      rw [WProg.bind_ok r1, queryHeader_qdcount, if_neg (fun e => by
        have := congrArg UInt16.toNat e
        rw [ofNat16_toNat hqs'] at this
        exact hq (List.eq_nil_of_length_eq_zero this))]
      let hb := (queryHeader id (UInt16.ofNat qs.length)).asBytes
      have hhb : hb.length = 12 := rfl
      have rp : (placeHeader (queryHeader id (UInt16.ofNat qs.length))).run imageOps c1
          = (.ok (), { (({ c1 with pos := 0 } : Image).put hb) with pos := c1.pos }) := by
        unfold placeHeader
        rw [WProg.bind_ok (img_streamPosition c1), WProg.bind_ok (img_rewind c1),
          WProg.bind_ok (img_writeAll (c := { c1 with pos := 0 }) (by show 12 ≤ c1.buf.length - 0; omega))]
        have hp : (UInt16.ofNat c1.pos).toNat = c1.pos := ofNat16_toNat (by omega)
        rw [img_seekStart]
        · rw [hp]
        · rw [hp, put_length _ _ (by show 0 + 12 ≤ c1.buf.length; omega)]
          show c1.pos ≤ c1.buf.length
          omega
      refine ⟨{ (({ c1 with pos := 0 } : Image).put hb) with pos := c1.pos }, ?_, hqs', ?_⟩
      · rw [WProg.bind_ok rp]; rfl
      · show (List.take 0 c1.buf ++ hb ++ List.drop (0 + hb.length) c1.buf).take c1.pos = hb ++ encQuestions qs
        rw [List.take_zero, List.nil_append, hhb, Nat.zero_add, List.take_append, hhb,
          List.take_of_length_le (by omega), List.take_drop, show 12 + (c1.pos - 12) = c1.pos by omega, hout,
          List.drop_append_of_le_length (by omega), List.drop_of_length_le (by omega), List.nil_append]
    · intro hfit
      obtain ⟨c1, r1⟩ := a2 hfit
      exact ⟨_, c1, .inl rfl, by rw [WProg.bind_error r1]⟩
  · refine ⟨fun hfit => absurd hfit (by omega), fun _ => ⟨.unexpectedEof, ⟨buf, 0⟩, .inr rfl, ?_⟩⟩
    rw [WProg.bind_error (img_seekStart_eof (o := Header.LEN) (c := ⟨buf, 0⟩) (by rw [hL]; exact h12))]

/-! ## Decoding it again -/

theorem decode_labels (ls : List Bytes) (h : ∀ l ∈ ls, 1 ≤ l.length ∧ l.length ≤ 63) (rest : Bytes) (n : Nat)
    (hn : ls.length < n) : decodeLabels n (encLabels ls ++ 0 :: rest) = some (ls, rest) := by
  induction ls generalizing n with
  | nil =>
    obtain ⟨k, rfl⟩ : ∃ k, n = k + 1 := ⟨n - 1, by omega⟩
    rfl
  | cons l ls ih =>
    obtain ⟨k, rfl⟩ : ∃ k, n = k + 1 := ⟨n - 1, by omega⟩
    have hl := h l (by simp)
    have e : encLabels (l :: ls) ++ 0 :: rest = UInt8.ofNat l.length :: (l ++ (encLabels ls ++ 0 :: rest)) := by
      simp [encLabels]
    have ht : (UInt8.ofNat l.length).toNat = l.length := by rw [UInt8.toNat_ofNat']; omega
    rw [e, decodeLabels, if_neg (fun h0 => by
      have := congrArg UInt8.toNat h0
      rw [ht] at this
      have h2 : (0 : UInt8).toNat = 0 := rfl
      omega), ht, if_pos ⟨hl.2, by rw [List.length_append]; omega⟩]
    rw [List.drop_left, List.take_left, ih (fun l' hl' => h l' (List.mem_cons_of_mem _ hl')) k (by simp at hn; omega)]
    rfl

theorem encLabels_ge (ls : List Bytes) : ls.length ≤ (encLabels ls).length := by
  induction ls with
  | nil => exact Nat.zero_le _
  | cons l ls ih =>
    have e : encLabels (l :: ls) = UInt8.ofNat l.length :: (l ++ encLabels ls) := by simp [encLabels]
    rw [e]
    simp only [List.length_cons, List.length_append]
    omega

theorem decode_questions (qs : List (Qtype × Bytes)) (hv : ∀ q ∈ qs, ValidHostname q.2) :
    decodeQuestions qs.length (encQuestions qs) = some (qs.map fun q => ⟨q.2, q.1.code.toNat, 1⟩, []) := by
  induction qs with
  | nil => rfl
  | cons q qs ih =>
    obtain ⟨f1, f2, f3, f4, f5⟩ := name_facts (hv q (by simp))
    have e : encQuestions (q :: qs) = encLabels (hostnameLabels q.2) ++ 0 :: (q.1.highByte :: q.1.lowByte ::
        Qclass.IN.highByte :: Qclass.IN.lowByte :: encQuestions qs) := by simp [encQuestions, encQuestion]
    have hge := encLabels_ge (hostnameLabels q.2)
    rw [List.length_cons, decodeQuestions, e, decode_labels _ f3 _ _ (by rw [List.length_append]; omega)]
    dsimp only
    rw [ih fun q' hq' => hv q' (List.mem_cons_of_mem _ hq'), f2, (C31_bytes q.1 .IN).1, (C31_bytes q.1 .IN).2]
    rfl

/-- The message the client should send: standard query, recursion desired, the questions in class IN. -/
def queryFor (id : UInt16) (qs : List (Qtype × Bytes)) : Query :=
  { id := id.toNat, qr := 0, opcode := 0, aa := 0, tc := 0, rd := 1, ra := 0, z := 0, rcode := 0,
    questions := qs.map fun q => ⟨q.2, q.1.code.toNat, 1⟩, ancount := 0, nscount := 0, arcount := 0 }

theorem decode_query (id : UInt16) (qs : List (Qtype × Bytes)) (hv : ∀ q ∈ qs, ValidHostname q.2) (hn : qs.length < 65536) :
    decodeQuery (encQuery id qs) = some (queryFor id qs) := by
  unfold encQuery Header.asBytes queryHeader
  simp only [List.cons_append, List.nil_append]
  unfold decodeQuery
  have n1 : ∀ v : UInt16, num (v >>> 8).toUInt8 v.toUInt8 = v.toNat := by
    intro v; unfold num; rw [hi_toNat, lo_toNat]; omega
  dsimp only
  rw [n1, n1, ofNat16_toNat hn, decode_questions qs hv]
  rfl

/-! ## C26 -/

theorem query_eq (dbg : Bool) (fuel : Nat) (c : Client) (qs : List (Qtype × Bytes)) :
    query dbg fuel worldBus c qs = (udpBind dbg fuel worldBus c.sn c.port >>= fun _ =>
      writeTo c.sn c.server (queryProg c.rng.nextU16.1 qs) >>= fun hr =>
      sendQuery worldBus hr.2 hr.1 >>= fun id => pure (id, { c with rng := c.rng.nextU16.2 })) := by
  unfold query writeTo
  simp only [bind_assoc]

theorem mdnsQuery_eq (fuel : Nat) (c : MdnsClient) (qs : List (Qtype × Bytes)) :
    mdnsQuery fuel worldBus c qs = ((do
      worldBus.setSnDhar c.sn ⟨0x01, 0x00, 0x5E, 0x00, 0x00, 0xFB⟩
      worldBus.setSnTtl c.sn 255
      worldBus.setSnCr c.sn .close
      waitStatus worldBus c.sn .closed fuel
      worldBus.setSnPort c.sn c.port
      worldBus.setSnMr c.sn (SocketMode.default.setProtocol .udp).enableMulti
      worldBus.setSnCr c.sn .«open»
      waitStatus worldBus c.sn .udp fuel) >>= fun _ =>
      writeTo c.sn mdnsServer (queryProg 0 qs) >>= fun hr => sendQuery worldBus hr.2 hr.1 >>= fun _ => pure ()) := by
  unfold mdnsQuery writeTo
  simp only [bind_assoc]

/-- The part common to both clients. -/
theorem send_part {sn : Sn} {w : World} {size : Nat} (h : Fresh w.chip sn.idx size) (hsz : size < 65536) (dest : SockAddr) (id : UInt16)
    (qs : List (Qtype × Bytes)) (hv : ∀ q ∈ qs, ValidHostname q.2) (hq : qs ≠ []) :
    let m := writeTo sn dest (queryProg id qs) >>= fun hr => sendQuery worldBus hr.2 hr.1
    ((encQuery id qs).length ≤ size → ∃ w', m w = (.ok id, w') ∧
      w'.chip.sent = w.chip.sent ++ [⟨sn.idx, dest.ip.octets, dest.port.toNat, encQuery id qs⟩] ∧
      decodeQuery (encQuery id qs) = some (queryFor id qs)) ∧
    (¬ (encQuery id qs).length ≤ size → ∃ e w', (e = .outOfMemory ∨ e = .unexpectedEof) ∧ m w = (.error e, w') ∧
      w'.chip.sent = w.chip.sent) := by
  intro m
  obtain ⟨buf, hb, b1, b2⟩ := writeTo_run h dest (queryProg id qs)
  obtain ⟨p1, p2⟩ := run_queryProg (buf := buf) (by omega) id qs hv hq
  rw [hb] at p1 p2
  constructor
  · intro hfit
    obtain ⟨c, r1, hlen, r2⟩ := p1 hfit
    obtain ⟨r, w1, k1, k2, w2, k3, k4⟩ := b2 _ _ r1
    rw [r2] at k4
    refine ⟨w2, ?_, k4, decode_query id qs hv hlen⟩
    show (_ >>= _ : M World _) w = _
    rw [M.bind_ok k1]
    unfold sendQuery
    rw [queryHeader_qdcount, if_neg (fun e => by
      have := congrArg UInt16.toNat e
      rw [ofNat16_toNat hlen] at this
      exact hq (List.eq_nil_of_length_eq_zero this)), M.bind_ok k3, queryHeader_id]
    rfl
  · intro hfit
    obtain ⟨e, c, he, r1⟩ := p2 hfit
    obtain ⟨w1, k1, k2⟩ := b1 _ _ r1
    exact ⟨e, w1, he, by show (_ >>= _ : M World _) w = _; rw [M.bind_error k1], k2⟩

theorem encQuery_length (id : UInt16) (qs : List (Qtype × Bytes)) (hv : ∀ q ∈ qs, ValidHostname q.2) :
    (encQuery id qs).length = 12 + (qs.map fun q => q.2.length + 6).sum := by
  unfold encQuery
  rw [List.length_append]
  have : (encQuestions qs).length = (qs.map fun q => q.2.length + 6).sum := by
    induction qs with
    | nil => rfl
    | cons q qs ih =>
      have e : encQuestions (q :: qs) = encQuestion q ++ encQuestions qs := by simp [encQuestions]
      rw [e, List.length_append, encQuestion_length (hv q (by simp)), ih fun q' hq' => hv q' (List.mem_cons_of_mem _ hq')]
      rfl
  rw [this]; rfl

/-- C26: `query` with one or more questions about valid host names, then `send`.  Once the socket is
bound: if 12 bytes plus 6 bytes and the name per question fit the transmit buffer, exactly one datagram is
sent, to the client's server, and it decodes to a standard query with the identifier that is returned,
recursion desired, and exactly the questions asked; otherwise nothing is sent and the result is an error. -/
theorem C26_query (dbg : Bool) (fuel : Nat) (c : Client) (qs : List (Qtype × Bytes)) (w w1 : World)
    (hs : Sizes w.chip c.sn.toU8.toNat) (hv : ∀ q ∈ qs, ValidHostname q.2) (hq : qs ≠ [])
    (hb : udpBind dbg fuel worldBus c.sn c.port w = (.ok (), w1)) :
    (12 + (qs.map fun q => q.2.length + 6).sum ≤ w.chip.txSize c.sn.toU8.toNat → ∃ id w' m,
      query dbg fuel worldBus c qs w = (.ok (id, { c with rng := c.rng.nextU16.2 }), w') ∧ id = c.rng.nextU16.1 ∧
      w'.chip.sent = w.chip.sent ++ [⟨c.sn.toU8.toNat, c.server.ip.octets, c.server.port.toNat, m⟩] ∧
      decodeQuery m = some (queryFor id qs)) ∧
    (¬ 12 + (qs.map fun q => q.2.length + 6).sum ≤ w.chip.txSize c.sn.toU8.toNat → ∃ e w',
      (e = .outOfMemory ∨ e = .unexpectedEof) ∧ query dbg fuel worldBus c qs w = (.error e, w') ∧
      w'.chip.sent = w.chip.sent) := by
  have hf := udpBind_fresh hs hb
  have hsent := keepsSent_udpBind dbg fuel c.sn c.port w
  rw [hb] at hsent
  obtain ⟨p1, p2⟩ := send_part hf hs.tx_lt c.server c.rng.nextU16.1 qs hv hq
  rw [encQuery_length _ _ hv] at p1 p2
  rw [query_eq, M.bind_ok hb, ← bind_assoc]
  dsimp only at hsent
  rw [hsent] at p1 p2
  constructor
  · intro hfit
    obtain ⟨w', k1, k2, k3⟩ := p1 hfit
    exact ⟨_, w', _, by rw [M.bind_ok k1]; rfl, rfl, k2, k3⟩
  · intro hfit
    obtain ⟨e, w', he, k1, k2⟩ := p2 hfit
    exact ⟨e, w', he, by rw [M.bind_error k1], k2⟩

/-- C26 for `a_question` of a client made by `new` for server `ip`, possibly changed by `set_server`: one
datagram to port 53 of the server last set, with the single A question. -/
theorem C26_a_question (dbg : Bool) (fuel : Nat) (sn : Sn) (port : UInt16) (ip0 ip : Ipv4) (seed : UInt64) (name : Bytes) (w w1 : World)
    (hs : Sizes w.chip sn.toU8.toNat) (hv : ValidHostname name)
    (hb : udpBind dbg fuel worldBus sn port w = (.ok (), w1)) (hfit : 18 + name.length ≤ w.chip.txSize sn.toU8.toNat) :
    ∃ id c' w' m, aQuestion dbg fuel worldBus ((Client.new sn port ip0 seed).setServer ip) name w = (.ok (id, c'), w') ∧
      c'.serverIp = ip ∧
      w'.chip.sent = w.chip.sent ++ [⟨sn.toU8.toNat, ip.octets, 53, m⟩] ∧
      decodeQuery m = some (queryFor id [(.A, name)]) := by
  obtain ⟨k, -⟩ := C26_query dbg fuel ((Client.new sn port ip0 seed).setServer ip) [(.A, name)] w w1 hs (by simpa using hv)
    (by simp) hb
  obtain ⟨id, w', m, h1, h2, h3, h4⟩ := k (by
    show 12 + (name.length + 6 + 0) ≤ w.chip.txSize sn.toU8.toNat
    omega)
  exact ⟨id, _, w', m, h1, rfl, h3, h4⟩

/-- C26: if the socket cannot be bound nothing is sent. -/
theorem C26_bind_error (dbg : Bool) (fuel : Nat) (c : Client) (qs : List (Qtype × Bytes)) (w w1 : World) (e : Err)
    (hb : udpBind dbg fuel worldBus c.sn c.port w = (.error e, w1)) :
    query dbg fuel worldBus c qs w = (.error e, w1) ∧ w1.chip.sent = w.chip.sent := by
  have hsent := keepsSent_udpBind dbg fuel c.sn c.port w
  rw [hb] at hsent
  exact ⟨by rw [query_eq, M.bind_error hb], hsent⟩

theorem mdns_prefix_sent (fuel : Nat) (c : MdnsClient) : KeepsSent (do
      worldBus.setSnDhar c.sn ⟨0x01, 0x00, 0x5E, 0x00, 0x00, 0xFB⟩
      worldBus.setSnTtl c.sn 255
      worldBus.setSnCr c.sn .close
      waitStatus worldBus c.sn .closed fuel
      worldBus.setSnPort c.sn c.port
      worldBus.setSnMr c.sn (SocketMode.default.setProtocol .udp).enableMulti
      worldBus.setSnCr c.sn .«open»
      waitStatus worldBus c.sn .udp fuel) :=
  .bind (keepsSent_setSnDhar _ _) fun _ => .bind (keepsSent_setSnTtl _ _) fun _ =>
  .bind (keepsSent_cmd c.sn .close fun _ => rfl) fun _ =>
  .bind (ReadOnly.keepsSent (Thm.readOnly_waitStatus _ _ _)) fun _ =>
  .bind (keepsSent_setSnPort _ _) fun _ => .bind (keepsSent_setSnMr _ _) fun _ =>
  .bind (keepsSent_cmd c.sn .«open» fun _ => rfl) fun _ => ReadOnly.keepsSent (Thm.readOnly_waitStatus _ _ _)

/-- C26 for the multicast client: whenever `query` and `send` succeed with one or more questions, exactly one
datagram was sent, to 224.0.0.251 port 5353, and it decodes to a query with identifier 0 and exactly the
questions asked; whenever they fail, nothing was sent. -/
theorem C26_mdns (fuel : Nat) (c : MdnsClient) (qs : List (Qtype × Bytes)) (w : World)
    (hs : Sizes w.chip c.sn.toU8.toNat) (hv : ∀ q ∈ qs, ValidHostname q.2) (hq : qs ≠ []) :
    let out := mdnsQuery fuel worldBus c qs w
    (out.1 = .ok () → ∃ m, out.2.chip.sent = w.chip.sent ++ [⟨c.sn.toU8.toNat, [224, 0, 0, 251], 5353, m⟩] ∧
      decodeQuery m = some (queryFor 0 qs)) ∧
    (∀ e, out.1 = .error e → out.2.chip.sent = w.chip.sent) := by
  intro out
  have hout : out = mdnsQuery fuel worldBus c qs w := rfl
  rw [mdnsQuery_eq] at hout
  have hsent := mdns_prefix_sent fuel c w
  rw [M.bind_run] at hout
  rcases hp : (do
      worldBus.setSnDhar c.sn ⟨0x01, 0x00, 0x5E, 0x00, 0x00, 0xFB⟩
      worldBus.setSnTtl c.sn 255
      worldBus.setSnCr c.sn .close
      waitStatus worldBus c.sn .closed fuel
      worldBus.setSnPort c.sn c.port
      worldBus.setSnMr c.sn (SocketMode.default.setProtocol .udp).enableMulti
      worldBus.setSnCr c.sn .«open»
      waitStatus worldBus c.sn .udp fuel : M World Unit) w with ⟨e | u, w1⟩
  · rw [hp] at hout hsent
    dsimp only at hout hsent
    rw [hout]
    exact ⟨nofun, fun _ _ => hsent⟩
  · rw [hp] at hout hsent
    dsimp only at hout hsent
    have hf : Fresh w1.chip c.sn.idx (w.chip.txSize c.sn.idx) := by
      refine open_fresh (sn := c.sn) (pre := do
          worldBus.setSnDhar c.sn ⟨0x01, 0x00, 0x5E, 0x00, 0x00, 0xFB⟩
          worldBus.setSnTtl c.sn 255
          worldBus.setSnCr c.sn .close
          waitStatus worldBus c.sn .closed fuel
          worldBus.setSnPort c.sn c.port
          worldBus.setSnMr c.sn (SocketMode.default.setProtocol .udp).enableMulti)
        (.bind (keepsSize_setSnDhar _ _) fun _ => .bind (keepsSize_setSnTtl _ _) fun _ =>
          .bind (keepsSize_setStatusCmd c.sn .close 0x00 fun _ => rfl) fun _ =>
          .bind ((readOnly_waitStatus _ _ _).keepsSize _) fun _ => .bind (keepsSize_setSnPort _ _) fun _ => keepsSize_setSnMr _ _)
        (post := waitStatus worldBus c.sn .udp fuel) ((readOnly_waitStatus _ _ _).keepsFresh _)
        (ReadOnly.keepsFull (readOnly_waitStatus _ _ _) _) ((readOnly_waitStatus _ _ _).keepsSize _) w u w1 hs ?_
      simp only [bind_assoc]; exact hp
    obtain ⟨p1, p2⟩ := send_part hf hs.tx_lt mdnsServer 0 qs hv hq
    rw [← bind_assoc] at hout
    rw [hsent] at p1 p2
    by_cases hfit : (encQuery 0 qs).length ≤ w.chip.txSize c.sn.idx
    · obtain ⟨w', k1, k2, k3⟩ := p1 hfit
      rw [M.bind_ok k1] at hout
      rw [hout]
      exact ⟨fun _ => ⟨_, k2, k3⟩, fun _ h => absurd h nofun⟩
    · obtain ⟨e, w', he, k1, k2⟩ := p2 hfit
      rw [M.bind_error k1] at hout
      rw [hout]
      exact ⟨nofun, fun _ _ => k2⟩

/-- A query for the A record of `a.bc` from a freshly reset chip: the socket is bound, the datagram is sent. -/
example : let c : Client := ⟨.sn3, 45917, ⟨⟨8, 8, 8, 8⟩, 53⟩, ⟨1⟩⟩
    ValidHostname [97, 46, 98, 99] ∧ (udpBind true 3 worldBus c.sn c.port sampleWorld).1 = .ok () ∧
    ((query true 3 worldBus c [(.A, [97, 46, 98, 99])] sampleWorld).2.chip.sent.map (·.payload)) =
      [[(c.rng.nextU16.1 >>> 8).toUInt8, c.rng.nextU16.1.toUInt8, 1, 0, 0, 1, 0, 0, 0, 0, 0, 0,
        1, 97, 2, 98, 99, 0, 0, 1, 0, 1]] := by
  refine ⟨⟨by decide, by decide, [[97], [98, 99]], by decide, by decide, by unfold ValidLabel isAlnum; decide⟩, ?_, ?_⟩
  · decide +kernel
  · decide +kernel

end Verif.Thm
