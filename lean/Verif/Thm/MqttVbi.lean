import Verif.Model.Mqtt
import Verif.Spec.Mqtt
import Verif.Proof.Table
import Verif.Proof.Dns
/-!
# C44, C46, C51, C71: MQTT variable byte integers, client identifiers, reason codes
-/
namespace Verif.Thm
open Verif Hl Spec Verif.Mqtt

theorem byte_low7 (x : UInt8) : (x &&& 0x7F).toNat = x.toNat % 128 := by
  rw [UInt8.toNat_and]; exact Nat.and_two_pow_sub_one_eq_mod x.toNat 7
theorem byte_top : ∀ x : UInt8, (x &&& 0x80 = 0) ↔ x.toNat < 128 :=
  forall_u8 (p := fun x => (x &&& 0x80 = 0) ↔ x.toNat < 128) (by decide +kernel)
theorem byte_more : ∀ x : UInt8, x.toNat < 128 → (x ||| 0x80).toNat = x.toNat + 128 :=
  forall_u8 (p := fun x => x.toNat < 128 → (x ||| 0x80).toNat = x.toNat + 128) (by decide +kernel)

/-- One step of decoding. -/
theorem decode_step (dbg : Bool) (x : UInt8) (xs : Bytes) (mult value : UInt32) (n : UInt8) (m : Nat) (hm : mult.toNat = m)
    (h1 : m ≤ 2097152) (hv : value.toNat < m) :
    ∃ mult' value' : UInt32, mult'.toNat = 128 * m ∧ value'.toNat = value.toNat + x.toNat % 128 * m ∧ value'.toNat < 128 * m ∧
      decodeLoop dbg (x :: xs) mult value n =
        if x.toNat < 128 then .ok (value', n + 1) else decodeLoop dbg xs mult' value' (n + 1) := by
  have hlow := byte_low7 x
  have hx : x.toNat % 128 * m ≤ 127 * m := Nat.mul_le_mul_right _ (by omega)
  have hval : (value + (x &&& 0x7F).toUInt32 * mult).toNat = value.toNat + x.toNat % 128 * m := by
    rw [UInt32.toNat_add, UInt32.toNat_mul, UInt8.toNat_toUInt32, hlow, hm]
    omega
  refine ⟨mult * 128, value + (x &&& 0x7F).toUInt32 * mult, ?_, hval, by omega, ?_⟩
  · rw [UInt32.toNat_mul, hm]; change m * 128 % 4294967296 = _; omega
  · rw [decodeLoop, if_neg (by rw [hlow, hm]; omega)]
    dsimp only
    rw [if_neg (by rw [gt_iff_lt, UInt32.lt_iff_toNat_lt, hm]; change ¬ 2097152 < m; omega)]
    by_cases ht : x.toNat < 128
    · rw [if_pos ((byte_top x).mpr ht), if_pos ht]
    · rw [if_neg (fun h => ht ((byte_top x).mp h)), if_neg ht]

/-- A fifth byte is not read. -/
theorem decode_fifth (dbg : Bool) (xs : Bytes) (mult value : UInt32) (n : UInt8) (hm : mult.toNat = 268435456) :
    ∃ e, decodeLoop dbg xs mult value n = .error e ∧ (xs = [] ↔ e = .fragment) ∧ (dbg = false → xs ≠ [] → e = .decode) := by
  cases xs with
  | nil => exact ⟨.fragment, rfl, by simp, fun _ h => absurd rfl h⟩
  | cons x xs =>
    rw [decodeLoop]
    split
    · rename_i h
      exact ⟨.panic, rfl, by simp, fun hd => by rw [hd] at h; simp at h⟩
    · dsimp only
      rw [if_pos (by rw [gt_iff_lt, UInt32.lt_iff_toNat_lt, hm]; decide)]
      exact ⟨.decode, rfl, by simp, fun _ _ => rfl⟩

theorem decode_gen (dbg : Bool) (j : Nat) (hj : j ≤ 4) (xs : Bytes) (mult value : UInt32) (n : UInt8)
    (hm : mult.toNat * 128 ^ j = 268435456) (hv : value.toNat < mult.toNat) :
    (∀ bs rest v, xs = bs ++ rest → Spec.Mqtt.IsVbi bs v → bs.length ≤ j →
      ∃ r, decodeLoop dbg xs mult value n = .ok (r, n + UInt8.ofNat bs.length) ∧ r.toNat = value.toNat + mult.toNat * v) ∧
    ((∀ b ∈ xs.take j, 128 ≤ b.toNat) →
      ∃ e, decodeLoop dbg xs mult value n = .error e ∧ (xs.length ≤ j ↔ e = .fragment) ∧ (dbg = false → j < xs.length → e = .decode)) := by
  induction j generalizing xs mult value n with
  | zero =>
    constructor
    · intro bs rest v _ hb hl
      cases hb <;> simp at hl
    · intro _
      obtain ⟨e, h1, h2, h3⟩ := decode_fifth dbg xs mult value n (by omega)
      refine ⟨e, h1, ?_, fun hd hx => h3 hd (by intro he; rw [he] at hx; simp at hx)⟩
      rw [← h2, Nat.le_zero, List.length_eq_zero_iff]
  | succ j ih =>
    have hmle : mult.toNat ≤ 2097152 := by
      have : 128 ^ j ≥ 1 := Nat.pos_of_ne_zero (by simp)
      rw [Nat.pow_succ, ← Nat.mul_assoc] at hm
      have := Nat.le_mul_of_pos_right mult.toNat this
      omega
    cases xs with
    | nil =>
      constructor
      · intro bs rest v he hb hl
        cases hb <;> simp at he
      · intro _
        exact ⟨.fragment, rfl, by simp, fun _ h => by simp at h⟩
    | cons x xs =>
      obtain ⟨mult', value', e1, e2, e3, e4⟩ := decode_step dbg x xs mult value n mult.toNat rfl hmle hv
      obtain ⟨ih1, ih2⟩ := ih (by omega) xs mult' value' (n + 1) (by
        rw [e1, Nat.mul_comm 128, Nat.mul_assoc, Nat.mul_comm 128, ← Nat.pow_succ]; exact hm) (by omega)
      constructor
      · intro bs rest v he hb hl
        cases hb with
        | last b hb =>
          simp at he
          obtain ⟨rfl, rfl⟩ := he
          rw [e4, if_pos hb]
          refine ⟨value', rfl, ?_⟩
          rw [e2, Nat.mod_eq_of_lt hb, Nat.mul_comm]
        | more b hb' hb =>
          rename_i bs n'
          simp at he hl
          obtain ⟨rfl, rfl⟩ := he
          obtain ⟨r, r1, r2⟩ := ih1 bs rest n' rfl hb hl
          rw [e4, if_neg (by omega)]
          refine ⟨r, ?_, ?_⟩
          · rw [r1, List.length_cons]
            congr 2
            apply UInt8.toNat_inj.mp
            simp only [UInt8.toNat_add, UInt8.toNat_ofNat']
            simp; omega
          · have : x.toNat % 128 = x.toNat - 128 := by have := x.toNat_lt; omega
            rw [r2, e2, e1, this]
            generalize x.toNat - 128 = a
            generalize mult.toNat = m
            generalize value.toNat = b
            grind
      · intro hall
        have hx := hall x (by simp)
        obtain ⟨e, h1, h2, h3⟩ := ih2 (fun b hb => hall b (by simp [hb]))
        rw [e4, if_neg (by omega)]
        refine ⟨e, h1, ?_, fun hd hl => h3 hd (by simp at hl; omega)⟩
        rw [← h2, List.length_cons]; omega

/-- Every string begins with a variable byte integer or consists of bytes with the top bit set. -/
theorem vbi_or (bs : Bytes) (j : Nat) :
    (∃ pre rest v, bs = pre ++ rest ∧ Spec.Mqtt.IsVbi pre v ∧ pre.length ≤ j) ∨ (∀ b ∈ bs.take j, 128 ≤ b.toNat) := by
  induction j generalizing bs with
  | zero => right; simp
  | succ j ih =>
    cases bs with
    | nil => right; simp
    | cons x xs =>
      by_cases hx : x.toNat < 128
      · exact .inl ⟨[x], xs, _, rfl, .last x hx, by simp⟩
      · rcases ih xs with ⟨pre, rest, v, h1, h2, h3⟩ | h
        · exact .inl ⟨x :: pre, rest, _, by simp [h1], .more x (by omega) h2, by simp; omega⟩
        · right
          intro b hb
          simp at hb
          rcases hb with rfl | hb
          · omega
          · exact h b hb

theorem isVbi_unique {a b ra rb : Bytes} {m n : Nat} (ha : Spec.Mqtt.IsVbi a m) (hb : Spec.Mqtt.IsVbi b n) (h : a ++ ra = b ++ rb) :
    a = b ∧ m = n := by
  induction ha generalizing b n with
  | last x hx =>
    cases hb with
    | last y hy => simp at h; rw [h.1]; exact ⟨rfl, rfl⟩
    | more y hy _ => simp at h; rw [h.1] at hx; omega
  | more x hx _ ih =>
    cases hb with
    | last y hy => simp at h; rw [h.1] at hx; omega
    | more y hy hb => simp at h; obtain ⟨e1, e2⟩ := ih hb h.2; rw [h.1, e1, e2]; exact ⟨rfl, rfl⟩

theorem isVbi_ne {bs : Bytes} {n : Nat} (h : Spec.Mqtt.IsVbi bs n) : bs.length ≠ 0 := by
  cases h <;> simp

theorem isVbi_lt {bs : Bytes} {n : Nat} (h : Spec.Mqtt.IsVbi bs n) : n < 128 ^ bs.length := by
  induction h with
  | last b h => simpa using h
  | more b h _ ih =>
    have := b.toNat_lt
    simp only [List.length_cons, Nat.pow_succ]
    omega

theorem vbi_isVbi (n : Nat) : Spec.Mqtt.IsVbi (Spec.Mqtt.vbi n) n := by
  induction n using Nat.strongRecOn with
  | ind n ih =>
    rw [Spec.Mqtt.vbi]
    split
    · rename_i h
      have : (UInt8.ofNat n).toNat = n := by simp; omega
      have := Spec.Mqtt.IsVbi.last (UInt8.ofNat n) (by omega)
      rwa [‹(UInt8.ofNat n).toNat = n›] at this
    · have e : (UInt8.ofNat (n % 128 + 128)).toNat = n % 128 + 128 := by simp; omega
      have := Spec.Mqtt.IsVbi.more (UInt8.ofNat (n % 128 + 128)) (by omega) (ih (n / 128) (by omega))
      rw [e, show n % 128 + 128 - 128 + 128 * (n / 128) = n by omega] at this
      exact this

theorem vbi_length (n j : Nat) : (Spec.Mqtt.vbi n).length ≤ j + 1 ↔ n < 128 ^ (j + 1) := by
  constructor
  · intro h
    exact Nat.lt_of_lt_of_le (isVbi_lt (vbi_isVbi n)) (Nat.pow_le_pow_right (by omega) h)
  · induction j generalizing n with
    | zero => intro h; rw [Spec.Mqtt.vbi, if_pos (by simpa using h)]; simp
    | succ j ih =>
      intro h
      rw [Spec.Mqtt.vbi]
      split
      · simp
      · have := ih (n / 128) (by rw [Nat.pow_succ] at h; omega)
        simp only [List.length_cons]; omega

theorem encode_gen (k : Nat) (n : UInt32) :
    encodeLoop k n = if n.toNat < 128 ^ k ∧ k ≠ 0 then some (Spec.Mqtt.vbi n.toNat) else none := by
  induction k generalizing n with
  | zero => simp [encodeLoop]
  | succ k ih =>
    have hd : (n / 128).toNat = n.toNat / 128 := UInt32.toNat_div n 128
    have hm : ((n % 128).toUInt8).toNat = n.toNat % 128 := by
      rw [UInt32.toNat_toUInt8, UInt32.toNat_mod]; change n.toNat % 128 % 256 = _; omega
    rw [encodeLoop, Spec.Mqtt.vbi]
    by_cases hz : n / 128 = 0
    · have : n.toNat < 128 := by
        have := congrArg UInt32.toNat hz
        rw [hd] at this; change _ = 0 at this; omega
      have h1 : 1 ≤ 128 ^ k := Nat.pos_of_ne_zero (by simp)
      rw [if_pos hz, if_pos this, if_pos ⟨by rw [Nat.pow_succ]; omega, by omega⟩]
      congr 2
      apply UInt8.toNat_inj.mp
      rw [hm]; simp; omega
    · have : ¬ n.toNat < 128 := fun h => hz (UInt32.toNat_inj.mp (by rw [hd]; change _ = 0; omega))
      rw [if_neg hz, if_neg this, ih, hd]
      have e : ((n % 128).toUInt8 ||| 0x80) = UInt8.ofNat (n.toNat % 128 + 128) := by
        apply UInt8.toNat_inj.mp
        rw [byte_more _ (by omega), hm]; simp; omega
      by_cases hk : n.toNat < 128 ^ (k + 1)
      · have hk0 : k ≠ 0 := by rintro rfl; simp at hk; omega
        rw [if_pos ⟨by rw [Nat.pow_succ] at hk; omega, hk0⟩, if_pos ⟨hk, by omega⟩, Option.map_some, e]
      · rw [if_neg (fun h => hk (by rw [Nat.pow_succ]; omega)), if_neg (fun h => hk h.1)]; rfl

/-- C44, encoding: the encoder returns the shortest variable byte integer with the given value, for every value up to
268435455 (it panics on larger ones, which have none of four bytes). -/
theorem C44_encode (n : UInt32) (h : n.toNat ≤ 268435455) :
    ∃ bs, encodeVbi n = some bs ∧ Spec.Mqtt.IsVbi bs n.toNat ∧ bs.length ≤ 4 ∧
      ∀ other, Spec.Mqtt.IsVbi other n.toNat → bs.length ≤ other.length := by
  refine ⟨Spec.Mqtt.vbi n.toNat, ?_, vbi_isVbi _, (vbi_length n.toNat 3).mpr (by omega), ?_⟩
  · unfold encodeVbi; rw [encode_gen, if_pos (by omega)]
  · intro other ho
    have hne : other.length ≠ 0 := isVbi_ne ho
    obtain ⟨j, hj⟩ : ∃ j, other.length = j + 1 := ⟨other.length - 1, by omega⟩
    rw [hj]
    exact (vbi_length _ j).mpr (by rw [← hj]; exact isVbi_lt ho)

/-- Larger values are not encoded: the encoder panics. -/
theorem C44_encode_large (n : UInt32) (h : 268435455 < n.toNat) : encodeVbi n = none := by
  unfold encodeVbi; rw [encode_gen, if_neg (by omega)]

/-- C44, decoding: if the bytes begin with a variable byte integer of at most four bytes, decoding returns its value and its
length, whatever follows. -/
theorem C44_decode (dbg : Bool) (bs rest : Bytes) (n : Nat) (h : Spec.Mqtt.IsVbi bs n) (hl : bs.length ≤ 4) :
    ∃ v k, decodeVbi dbg (bs ++ rest) = .ok (v, k) ∧ v.toNat = n ∧ k.toNat = bs.length := by
  obtain ⟨r, h1, h2⟩ := (decode_gen dbg 4 (by omega) (bs ++ rest) 1 0 0 (by decide) (by decide)).1 bs rest n rfl h hl
  refine ⟨r, _, h1, by rw [h2]; simp, ?_⟩
  rw [UInt8.zero_add]
  simp; omega

/-- C44: in all other cases decoding fails.  With four or fewer bytes, all of them announcing that more follow, the result is
`Fragment`; with more, an error (in a debug build it may be a panic; the client never passes more than four bytes). -/
theorem C44_decode_error (dbg : Bool) (buf : Bytes) (h : ∀ bs rest n, buf = bs ++ rest → Spec.Mqtt.IsVbi bs n → 4 < bs.length) :
    ∃ e, decodeVbi dbg buf = .error e ∧ (e = .fragment ↔ buf.length ≤ 4) ∧ (dbg = false → 4 < buf.length → e = .decode) := by
  have hall : ∀ b ∈ buf.take 4, 128 ≤ b.toNat := by
    rcases vbi_or buf 4 with ⟨pre, rest, v, h1, h2, h3⟩ | hall
    · have := h pre rest v h1 h2; omega
    · exact hall
  obtain ⟨e, h1, h2, h3⟩ := (decode_gen dbg 4 (by omega) buf 1 0 0 (by decide) (by decide)).2 hall
  exact ⟨e, h1, h2.symm, h3⟩

/-- C44, round trip: what the encoder wrote is decoded to the same number and its length, whatever follows. -/
theorem C44_round_trip (dbg : Bool) (n : UInt32) (rest : Bytes) (h : n.toNat ≤ 268435455) :
    ∃ bs, encodeVbi n = some bs ∧ decodeVbi dbg (bs ++ rest) = .ok (n, UInt8.ofNat bs.length) := by
  obtain ⟨bs, h1, h2, h3, -⟩ := C44_encode n h
  obtain ⟨v, k, d1, d2, d3⟩ := C44_decode dbg bs rest n.toNat h2 h3
  refine ⟨bs, h1, ?_⟩
  rw [d1, UInt32.toNat_inj.mp d2, show k = UInt8.ofNat bs.length from UInt8.toNat_inj.mp (by rw [d3]; simp; omega)]

example : encodeVbi 268435455 = some [0xFF, 0xFF, 0xFF, 0x7F] ∧ encodeVbi 16384 = some [0x80, 0x80, 1] ∧
    decodeVbi true [0x80, 0x80, 1, 9] = .ok (16384, 3) ∧ decodeVbi true [0x80, 0x80, 0x80, 0x80] = .error .fragment ∧
    decodeVbi false [0x80, 0x80, 0x80, 0x80, 0] = .error .decode := by decide +kernel
example : Spec.Mqtt.IsVbi [0x80, 0x80, 1] 16384 := .more 0x80 (by decide) (.more 0x80 (by decide) (.last 1 (by decide)))

/-- C51: `ClientId::new` accepts exactly the strings of 1 to 23 ASCII letters and digits, and keeps them as they are. -/
theorem C51_client_id (s : Bytes) :
    clientIdNew s =
      if (1 ≤ s.length ∧ s.length ≤ 23) ∧ ∀ x ∈ s, (65 ≤ x.toNat ∧ x.toNat ≤ 90) ∨ (97 ≤ x.toNat ∧ x.toNat ≤ 122) ∨ (48 ≤ x.toNat ∧ x.toNat ≤ 57)
      then some s else none := by
  have hc : ∀ x : UInt8, charIsValid x = true ↔
      (65 ≤ x.toNat ∧ x.toNat ≤ 90) ∨ (97 ≤ x.toNat ∧ x.toNat ≤ 122) ∨ (48 ≤ x.toNat ∧ x.toNat ≤ 57) :=
    forall_u8 (p := fun x => charIsValid x = true ↔
      (65 ≤ x.toNat ∧ x.toNat ≤ 90) ∨ (97 ≤ x.toNat ∧ x.toNat ≤ 122) ∨ (48 ≤ x.toNat ∧ x.toNat ≤ 57)) (by decide +kernel)
  unfold clientIdNew
  by_cases hl : 1 ≤ s.length ∧ s.length ≤ 23
  · rw [if_neg (by cases s with | nil => simp at hl | cons x xs => simp at hl ⊢; omega)]
    by_cases ha : ∀ x ∈ s, charIsValid x = true
    · rw [if_neg (by simpa using ha), if_pos ⟨hl, fun x hx => (hc x).mp (ha x hx)⟩]
    · rw [if_pos (by simpa using ha), if_neg (fun h => ha fun x hx => (hc x).mpr (h.2 x hx))]
  · rw [if_pos (by cases s with | nil => simp | cons x xs => simp at hl ⊢; omega), if_neg (fun h => hl h.1)]

example : clientIdNew [65, 122, 48] = some [65, 122, 48] ∧ clientIdNew [] = none ∧ clientIdNew [97, 45] = none ∧
    clientIdNew (List.replicate 24 97) = none ∧ clientIdNew (List.replicate 23 97) = some (List.replicate 23 97) := by decide +kernel

/-- C71: a byte is accepted as reason code of a CONNACK (other than 0), SUBACK or UNSUBACK exactly if the standard lists it
for that packet, as the value with that code; a byte that is not is handed back. -/
theorem C71_reason_codes :
    (IsCodeTable ConnectReasonCode.code ConnectReasonCode.tryFrom ∧
      ∀ x : UInt8, (∃ c, ConnectReasonCode.tryFrom x = .ok c) ↔ x.toNat ∈ Spec.Mqtt.connackCodes) ∧
    (IsCodeTable SubAckReasonCode.code SubAckReasonCode.tryFrom ∧
      ∀ x : UInt8, (∃ c, SubAckReasonCode.tryFrom x = .ok c) ↔ x.toNat ∈ Spec.Mqtt.subackCodes) ∧
    (IsCodeTable UnSubAckReasonCode.code UnSubAckReasonCode.tryFrom ∧
      ∀ x : UInt8, (∃ c, UnSubAckReasonCode.tryFrom x = .ok c) ↔ x.toNat ∈ Spec.Mqtt.unsubackCodes) := by
  have isOk {α : Type} (r : Except UInt8 α) : (∃ c, r = .ok c) ↔ r.toOption.isSome = true := by
    cases r <;> simp [Except.toOption]
  refine ⟨⟨isCodeTable_of_check _ _ (by intro v; cases v <;> decide +kernel)
      (forall_u8 (p := fun c => tableCheck ConnectReasonCode.code ConnectReasonCode.tryFrom c = true) (by decide +kernel)), ?_⟩,
    ⟨isCodeTable_of_check _ _ (by intro v; cases v <;> decide +kernel)
      (forall_u8 (p := fun c => tableCheck SubAckReasonCode.code SubAckReasonCode.tryFrom c = true) (by decide +kernel)), ?_⟩,
    ⟨isCodeTable_of_check _ _ (by intro v; cases v <;> decide +kernel)
      (forall_u8 (p := fun c => tableCheck UnSubAckReasonCode.code UnSubAckReasonCode.tryFrom c = true) (by decide +kernel)), ?_⟩⟩
  · intro x; rw [isOk]; revert x
    exact forall_u8 (p := fun x => (ConnectReasonCode.tryFrom x).toOption.isSome = true ↔ x.toNat ∈ Spec.Mqtt.connackCodes) (by decide +kernel)
  · intro x; rw [isOk]; revert x
    exact forall_u8 (p := fun x => (SubAckReasonCode.tryFrom x).toOption.isSome = true ↔ x.toNat ∈ Spec.Mqtt.subackCodes) (by decide +kernel)
  · intro x; rw [isOk]; revert x
    exact forall_u8 (p := fun x => (UnSubAckReasonCode.tryFrom x).toOption.isSome = true ↔ x.toNat ∈ Spec.Mqtt.unsubackCodes) (by decide +kernel)

example : ConnectReasonCode.tryFrom 0x9F = .ok .connectionRateExceeded ∧ SubAckReasonCode.tryFrom 3 = .error 3 := by decide

/-- C71: each of the names has the code that MQTT 5 gives it (OASIS MQTT 5.0, 3.2.2.2, 3.9.3 and 3.11.3). -/
theorem C71_names :
    (∀ p ∈ ([(0x80, .unspecifiedError), (0x81, .malformedPacket), (0x82, .protocolError), (0x83, .implementationSpecificError),
        (0x84, .unsupportedProtocolVersion), (0x85, .clientIdentifierNotValid), (0x86, .badUserNameOrPassword),
        (0x87, .notAuthorized), (0x88, .serverUnavailable), (0x89, .serverBusy), (0x8A, .banned),
        (0x8C, .badAuthenticationMethod), (0x90, .topicNameInvalid), (0x95, .packetTooLarge), (0x97, .quotaExceeded),
        (0x99, .payloadFormatInvalid), (0x9A, .retainNotSupported), (0x9B, .qoSNotSupported), (0x9C, .useAnotherServer),
        (0x9D, .serverMoved), (0x9F, .connectionRateExceeded)] : List (UInt8 × ConnectReasonCode)),
      ConnectReasonCode.tryFrom p.1 = .ok p.2) ∧
    (∀ p ∈ ([(0x00, .qoS0), (0x01, .qoS1), (0x02, .qoS2), (0x80, .unspecifiedError), (0x83, .implementationSpecificError),
        (0x87, .notAuthorized), (0x8F, .topicFilterInvalid), (0x91, .packetIdentifierInUse), (0x97, .quotaExceeded),
        (0x9E, .sharedSubscriptionsNotSupported), (0xA1, .subscriptionIdentifiersNotSupported),
        (0xA2, .wildcardSubscriptionsNotSupported)] : List (UInt8 × SubAckReasonCode)),
      SubAckReasonCode.tryFrom p.1 = .ok p.2) ∧
    (∀ p ∈ ([(0x00, .success), (0x11, .noSubscriptionExisted), (0x80, .unspecifiedError), (0x83, .implementationSpecificError),
        (0x87, .notAuthorized), (0x8F, .topicFilterInvalid), (0x91, .packetIdentifierInUse)] :
        List (UInt8 × UnSubAckReasonCode)),
      UnSubAckReasonCode.tryFrom p.1 = .ok p.2) := by decide +kernel

end Verif.Thm
