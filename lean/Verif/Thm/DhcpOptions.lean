import Verif.Proof.DhcpOpt
/-!
# C33, C34: looking up options
-/
namespace Verif.Thm
open Verif Hl Spec Dhcp Spec.Dhcp

/-- The caches that can exist while a packet `d` is being read: the initial one, and what a successful lookup of any
option from any position makes of one. -/
inductive Reached (d : Bytes) : Cache → Prop where
  | start : Reached d .empty
  | look {c c' : Cache} {p : Nat} {opt : UInt8} {r : Option UInt8} {cur : Cursor} (h : Reached d c) (hp : p ≤ d.length)
      (e : (seekToOption opt c).run cursorOps ⟨d, p⟩ = (.ok (r, c'), cur)) : Reached d c'

theorem Reached.ok {d : Bytes} (hd : d.length ≤ 65280) {c : Cache} (h : Reached d c) : CacheOk d c := by
  induction h with
  | start => exact ⟨[], List.nil_prefix, rfl⟩
  | @look c c' p opt r cur h hp e ih =>
    have := run_seekToOption hd opt ih p hp
    rcases hl : lookup d opt with i | _ | _
    · rw [hl] at this
      obtain ⟨c2, h1, h2⟩ := this
      rw [h2] at e
      cases e
      exact h1
    · rw [hl] at this
      obtain ⟨c2, p', h1, _, h2⟩ := this
      rw [h2] at e
      cases e
      exact h1
    · rw [hl] at this
      obtain ⟨p', _, h2⟩ := this
      rw [h2] at e
      cases e

/-- C33: whatever lookups were made before (any number of any codes, with the reader moved in between), looking up a
code in a packet gives what the first option with this code in the packet says: its length, with the reader on its
contents; or nothing if the packet has no such option; or `UnexpectedEof` if the packet ends in the middle of an option
before one is found. -/
theorem C33_lookup (d : Bytes) (hd : d.length ≤ 65280) (c : Cache) (hc : Reached d c) (opt : UInt8) (p : Nat)
    (hp : p ≤ d.length) :
    match lookup d opt with
    | .found i => ∃ c', (seekToOption opt c).run cursorOps ⟨d, p⟩ = (.ok (some i.len, c'), ⟨d, i.start⟩)
    | .absent => ∃ c' cur, (seekToOption opt c).run cursorOps ⟨d, p⟩ = (.ok (none, c'), cur)
    | .truncated => ∃ cur, (seekToOption opt c).run cursorOps ⟨d, p⟩ = (.error .unexpectedEof, cur) := by
  have := run_seekToOption hd opt (hc.ok hd) p hp
  rcases hl : lookup d opt with i | _ | _
  · rw [hl] at this
    obtain ⟨c2, _, h2⟩ := this
    exact ⟨c2, h2⟩
  · rw [hl] at this
    obtain ⟨c2, p', _, _, h2⟩ := this
    exact ⟨c2, _, h2⟩
  · rw [hl] at this
    obtain ⟨p', _, h2⟩ := this
    exact ⟨_, h2⟩

/-- C33: the answer after any history is the answer of a fresh reader. -/
theorem C33_history_independent (d : Bytes) (hd : d.length ≤ 65280) (c : Cache) (hc : Reached d c) (opt : UInt8) (p : Nat)
    (hp : p ≤ d.length) :
    ((seekToOption opt c).run cursorOps ⟨d, p⟩).1.map (·.1) = ((seekToOption opt .empty).run cursorOps ⟨d, 0⟩).1.map (·.1) ∧
    (∀ n, ((seekToOption opt c).run cursorOps ⟨d, p⟩).1.map (·.1) = .ok (some n) →
      ((seekToOption opt c).run cursorOps ⟨d, p⟩).2 = ((seekToOption opt .empty).run cursorOps ⟨d, 0⟩).2) := by
  have h1 := C33_lookup d hd c hc opt p hp
  have h2 := C33_lookup d hd .empty .start opt 0 (Nat.zero_le _)
  rcases hl : lookup d opt with i | _ | _
  · rw [hl] at h1 h2
    obtain ⟨c1, h1⟩ := h1
    obtain ⟨c2, h2⟩ := h2
    rw [h1, h2]
    exact ⟨rfl, fun _ _ => rfl⟩
  · rw [hl] at h1 h2
    obtain ⟨c1, _, h1⟩ := h1
    obtain ⟨c2, _, h2⟩ := h2
    rw [h1, h2]
    refine ⟨rfl, fun n hn => ?_⟩
    simp [Except.map] at hn
  · rw [hl] at h1 h2
    obtain ⟨_, h1⟩ := h1
    obtain ⟨_, h2⟩ := h2
    rw [h1, h2]
    refine ⟨rfl, fun n hn => ?_⟩
    simp [Except.map] at hn

/-! ## C34 -/

/-- The program returns the given result and leaves a cache for the packet. -/
def Gives {α : Type} (d : Bytes) (prog : RProg (α × Cache)) (v : Except Err α) : Prop :=
  ∀ p ≤ d.length, match v with
    | .ok a => ∃ c' p', CacheOk d c' ∧ p' ≤ d.length ∧ prog.run cursorOps ⟨d, p⟩ = (.ok (a, c'), ⟨d, p'⟩)
    | .error e => ∃ p', p' ≤ d.length ∧ prog.run cursorOps ⟨d, p⟩ = (.error e, ⟨d, p'⟩)

theorem Gives.map {α β : Type} {d : Bytes} {prog : RProg (α × Cache)} {v : Except Err α} (h : Gives d prog v) (f : α → β) :
    Gives d (prog >>= fun r => pure (f r.1, r.2)) (v.map f) := by
  intro p hp
  have := h p hp
  cases v with
  | ok a =>
    obtain ⟨c', p', h1, h2, h3⟩ := this
    exact ⟨c', p', h1, h2, by rw [RProg.bind_ok h3]; rfl⟩
  | error e =>
    obtain ⟨p', h2, h3⟩ := this
    exact ⟨p', h2, by rw [RProg.bind_error h3]⟩

theorem Gives.value {α : Type} {d : Bytes} {prog : RProg (α × Cache)} {v : Except Err α} (h : Gives d prog v) (p : Nat)
    (hp : p ≤ d.length) : (prog.run cursorOps ⟨d, p⟩).1.map (·.1) = v := by
  have := h p hp
  cases v with
  | ok a => obtain ⟨c', p', _, _, h3⟩ := this; rw [h3]; rfl
  | error e => obtain ⟨p', _, h3⟩ := this; rw [h3]; rfl

theorem gives_fixed {d : Bytes} (hd : d.length ≤ 65280) (n : Nat) (opt : UInt8) {c : Cache} (hc : CacheOk d c) :
    Gives d (findOptionFixedSize n opt c) (contents d opt (· == n) n) := by
  intro p hp
  have := run_seekToOption hd opt hc p hp
  unfold contents findOptionFixedSize
  rcases hl : lookup d opt with i | _ | _
  · rw [hl] at this
    obtain ⟨c2, h1, h2⟩ := this
    dsimp only
    by_cases hn : i.len.toNat = n
    · rw [if_pos (by simpa using hn)]
      by_cases hfit : i.start + n ≤ d.length
      · rw [if_pos hfit]
        refine ⟨c2, i.start + n, h1, hfit, ?_⟩
        rw [RProg.bind_ok h2]
        dsimp only
        rw [if_neg (by omega), RProg.bind_ok (cur_readExact (by omega))]
        rfl
      · rw [if_neg hfit]
        by_cases hs : i.start ≤ d.length
        · refine ⟨i.start, hs, ?_⟩
          rw [RProg.bind_ok h2]
          dsimp only
          rw [if_neg (by omega), RProg.bind_error (cur_readExact_eof (by omega))]
        · exfalso
          have := cur_inv (seekToOption opt c) ⟨d, p⟩ hp
          rw [h2] at this
          exact hs this.2
    · rw [if_neg (by simpa using hn)]
      have hs := cur_inv (seekToOption opt c) ⟨d, p⟩ hp
      rw [h2] at hs
      refine ⟨c2, i.start, h1, hs.2, ?_⟩
      rw [RProg.bind_ok h2]
      dsimp only
      rw [if_pos hn]
      rfl
  · rw [hl] at this
    obtain ⟨c2, p', h1, hp', h2⟩ := this
    exact ⟨c2, p', h1, hp', by rw [RProg.bind_ok h2]; rfl⟩
  · rw [hl] at this
    obtain ⟨p', hp', h2⟩ := this
    exact ⟨p', hp', by rw [RProg.bind_error h2]⟩

theorem gives_list {d : Bytes} (hd : d.length ≤ 65280) (opt : UInt8) {c : Cache} (hc : CacheOk d c) :
    Gives d (findOptionIpv4List opt c) ((contents d opt (fun n => n % 4 == 0 && 4 ≤ n) 4).map (·.map quad)) := by
  intro p hp
  have := run_seekToOption hd opt hc p hp
  unfold contents findOptionIpv4List
  rcases hl : lookup d opt with i | _ | _
  · rw [hl] at this
    obtain ⟨c2, h1, h2⟩ := this
    have hs := cur_inv (seekToOption opt c) ⟨d, p⟩ hp
    rw [h2] at hs
    dsimp only
    by_cases hn : i.len.toNat % 4 = 0 ∧ 4 ≤ i.len.toNat
    · rw [if_pos (by simpa using hn)]
      by_cases hfit : i.start + 4 ≤ d.length
      · rw [if_pos hfit]
        refine ⟨c2, i.start + 4, h1, hfit, ?_⟩
        rw [RProg.bind_ok h2]
        dsimp only
        rw [if_neg (by omega), RProg.bind_ok (cur_readExact (by omega))]
        rfl
      · rw [if_neg hfit]
        refine ⟨i.start, hs.2, ?_⟩
        rw [RProg.bind_ok h2]
        dsimp only
        rw [if_neg (by omega), RProg.bind_error (cur_readExact_eof (by have := hs.2; dsimp only at this; omega))]
    · rw [if_neg (by simpa using hn)]
      refine ⟨c2, i.start, h1, hs.2, ?_⟩
      rw [RProg.bind_ok h2]
      dsimp only
      rw [if_pos (by omega)]
      rfl
  · rw [hl] at this
    obtain ⟨c2, p', h1, hp', h2⟩ := this
    exact ⟨c2, p', h1, hp', by rw [RProg.bind_ok h2]; rfl⟩
  · rw [hl] at this
    obtain ⟨p', hp', h2⟩ := this
    exact ⟨p', hp', by rw [RProg.bind_error h2]⟩

/-- The contents have the length asked for. -/
theorem contents_length {d : Bytes} {opt : UInt8} {ok : Nat → Bool} {n : Nat} {x : Bytes}
    (h : contents d opt ok n = .ok (some x)) : x.length = n := by
  unfold contents at h
  rcases hl : lookup d opt with i | _ | _ <;> rw [hl] at h <;> dsimp only at h
  · split at h
    · split at h
      · cases h
        simp [field]
        omega
      · cases h
    · cases h
  · cases h
  · cases h

theorem gives_ipv4 {d : Bytes} (hd : d.length ≤ 65280) (opt : UInt8) {c : Cache} (hc : CacheOk d c) :
    Gives d (findOptionIpv4 opt c) ((contents d opt (· == 4) 4).map (·.map quad)) :=
  (gives_fixed hd 4 opt hc).map (·.map quad)

theorem gives_u32 {d : Bytes} (hd : d.length ≤ 65280) (opt : UInt8) {c : Cache} (hc : CacheOk d c) :
    Gives d (findOptionU32 opt c) ((contents d opt (· == 4) 4).map (·.map fun x => quadU32 (quad x))) :=
  (gives_fixed hd 4 opt hc).map (·.map fun x => quadU32 (quad x))

theorem gives_msgType {d : Bytes} (hd : d.length ≤ 65280) {c : Cache} (hc : CacheOk d c) :
    Gives d (msgType c) ((contents d 53 (· == 1) 1).map (·.bind fun x => match x with
      | [v] => (MsgType.tryFrom v).toOption
      | _ => none)) :=
  (gives_fixed hd 1 53 hc).map (·.bind fun x => match x with
      | [v] => (MsgType.tryFrom v).toOption
      | _ => none)

theorem quad_octets {x : Bytes} (h : x.length = 4) : (quad x).octets = x := by
  rcases x with _ | ⟨a, _ | ⟨b, _ | ⟨c, _ | ⟨e, _ | _⟩⟩⟩⟩ <;> simp at h
  rfl

theorem quad_num {x : Bytes} (h : x.length = 4) : (quadU32 (quad x)).toNat = num x := by
  rcases x with _ | ⟨a, _ | ⟨b, _ | ⟨c, _ | ⟨e, _ | _⟩⟩⟩⟩ <;> simp at h
  simp only [quad, quadU32, be32_toNat, num, List.foldl]
  omega

theorem map_contents {β : Type} {d : Bytes} {opt : UInt8} {ok : Nat → Bool} {n : Nat} {f g : Bytes → β}
    (h : ∀ x, x.length = n → f x = g x) :
    (contents d opt ok n).map (·.map f) = (contents d opt ok n).map (·.map g) := by
  rcases hc : contents d opt ok n with e | _ | x
  · rfl
  · rfl
  · simp only [Except.map, Option.map]
    rw [h x (contents_length hc)]

/-- The addresses the accessors return are the contents of the option. -/
theorem C34_ipv4 (d : Bytes) (hd : d.length ≤ 65280) (c : Cache) (hc : Reached d c) (p : Nat) (hp : p ≤ d.length) :
    ((subnetMask c).run cursorOps ⟨d, p⟩).1.map (fun r => r.1.map Ipv4.octets) = contents d 1 (· == 4) 4 ∧
    ((pktDns c).run cursorOps ⟨d, p⟩).1.map (fun r => r.1.map Ipv4.octets) =
      contents d 6 (fun n => n % 4 == 0 && 4 ≤ n) 4 ∧
    ((pktNtp c).run cursorOps ⟨d, p⟩).1.map (fun r => r.1.map Ipv4.octets) =
      contents d 42 (fun n => n % 4 == 0 && 4 ≤ n) 4 ∧
    ((dhcpServer c).run cursorOps ⟨d, p⟩).1.map (fun r => r.1.map Ipv4.octets) =
      contents d 54 (fun n => n % 4 == 0 && 4 ≤ n) 4 := by
  have key : ∀ {prog : RProg (Option Ipv4 × Cache)} {opt : UInt8} {ok : Nat → Bool},
      Gives d prog ((contents d opt ok 4).map (·.map quad)) →
      (prog.run cursorOps ⟨d, p⟩).1.map (fun r => r.1.map Ipv4.octets) = contents d opt ok 4 := by
    intro prog opt ok h
    have h1 := h.value p hp
    have : (prog.run cursorOps ⟨d, p⟩).1.map (fun r => r.1.map Ipv4.octets) =
        ((prog.run cursorOps ⟨d, p⟩).1.map (·.1)).map (·.map Ipv4.octets) := by
      cases (prog.run cursorOps ⟨d, p⟩).1 <;> rfl
    rw [this, h1]
    rcases hcx : contents d opt ok 4 with e | _ | x
    · rfl
    · rfl
    · simp only [Except.map, Option.map]
      rw [quad_octets (contents_length hcx)]
  exact ⟨key (gives_ipv4 hd 1 (hc.ok hd)), key (gives_list hd 6 (hc.ok hd)), key (gives_list hd 42 (hc.ok hd)),
    key (gives_list hd 54 (hc.ok hd))⟩

/-- The times the accessors return are the big-endian contents of the option. -/
theorem C34_u32 (d : Bytes) (hd : d.length ≤ 65280) (c : Cache) (hc : Reached d c) (p : Nat) (hp : p ≤ d.length) :
    ((leaseTime c).run cursorOps ⟨d, p⟩).1.map (fun r => r.1.map UInt32.toNat) =
      (contents d 51 (· == 4) 4).map (·.map num) ∧
    ((renewalTime c).run cursorOps ⟨d, p⟩).1.map (fun r => r.1.map UInt32.toNat) =
      (contents d 58 (· == 4) 4).map (·.map num) ∧
    ((rebindingTime c).run cursorOps ⟨d, p⟩).1.map (fun r => r.1.map UInt32.toNat) =
      (contents d 59 (· == 4) 4).map (·.map num) := by
  have key : ∀ {prog : RProg (Option UInt32 × Cache)} {opt : UInt8},
      Gives d prog ((contents d opt (· == 4) 4).map (·.map fun x => quadU32 (quad x))) →
      (prog.run cursorOps ⟨d, p⟩).1.map (fun r => r.1.map UInt32.toNat) = (contents d opt (· == 4) 4).map (·.map num) := by
    intro prog opt h
    have h1 := h.value p hp
    have : (prog.run cursorOps ⟨d, p⟩).1.map (fun r => r.1.map UInt32.toNat) =
        ((prog.run cursorOps ⟨d, p⟩).1.map (·.1)).map (·.map UInt32.toNat) := by
      cases (prog.run cursorOps ⟨d, p⟩).1 <;> rfl
    rw [this, h1]
    rcases hcx : contents d opt (· == 4) 4 with e | _ | x
    · rfl
    · rfl
    · simp only [Except.map, Option.map]
      rw [quad_num (contents_length hcx)]
  exact ⟨key (gives_u32 hd 51 (hc.ok hd)), key (gives_u32 hd 58 (hc.ok hd)), key (gives_u32 hd 59 (hc.ok hd))⟩

/-- The codes of the message types, RFC 2132 section 9.6: `DHCPDISCOVER` is 1, ..., `DHCPINFORM` is 8; no other code is
a type. -/
theorem C34_message_type_codes :
    [MsgType.discover, .offer, .request, .decline, .ack, .nak, .release, .inform].map MsgType.code =
      [1, 2, 3, 4, 5, 6, 7, 8] ∧
    (∀ t : MsgType, MsgType.tryFrom t.code = .ok t) ∧
    ∀ v : UInt8, (∃ t, MsgType.tryFrom v = .ok t ∧ t.code = v) ↔ 1 ≤ v.toNat ∧ v.toNat ≤ 8 := by
  refine ⟨rfl, fun t => by cases t <;> rfl, ?_⟩
  intro v
  have := forall_u8 (p := fun v => (∃ t ∈ [MsgType.discover, .offer, .request, .decline, .ack, .nak, .release, .inform],
    MsgType.tryFrom v = .ok t ∧ t.code = v) ↔ 1 ≤ v.toNat ∧ v.toNat ≤ 8) (by decide +kernel) v
  rw [← this]
  constructor
  · rintro ⟨t, ht⟩
    exact ⟨t, by cases t <;> simp, ht⟩
  · rintro ⟨t, _, ht⟩
    exact ⟨t, ht⟩

/-- The message type accessor returns the type whose code is the single byte of option 53. -/
theorem C34_message_type (d : Bytes) (hd : d.length ≤ 65280) (c : Cache) (hc : Reached d c) (p : Nat)
    (hp : p ≤ d.length) :
    ((msgType c).run cursorOps ⟨d, p⟩).1.map (fun r => r.1.map MsgType.code) =
      (contents d 53 (· == 1) 1).map (·.bind fun x => x.head?.bind fun v =>
        if 1 ≤ v.toNat ∧ v.toNat ≤ 8 then some v else none) := by
  have h1 := (gives_msgType hd (hc.ok hd)).value p hp
  have : ((msgType c).run cursorOps ⟨d, p⟩).1.map (fun r => r.1.map MsgType.code) =
      (((msgType c).run cursorOps ⟨d, p⟩).1.map (·.1)).map (·.map MsgType.code) := by
    cases ((msgType c).run cursorOps ⟨d, p⟩).1 <;> rfl
  rw [this, h1]
  rcases hcx : contents d 53 (· == 1) 1 with e | _ | x
  · rfl
  · rfl
  · have hl := contents_length hcx
    rcases x with _ | ⟨v, _ | _⟩ <;> simp at hl
    simp only [Except.map, Option.bind, List.head?]
    have := forall_u8 (p := fun v => Option.map MsgType.code (MsgType.tryFrom v).toOption =
      if 1 ≤ v.toNat ∧ v.toNat ≤ 8 then some v else none) (by decide +kernel) v
    rw [this]

/-- C33, C34: an accessor leaves the reader in a state covered by these theorems, so they hold for any sequence of
calls of the accessors. -/
theorem C33_accessors (d : Bytes) (c : Cache) (hc : Reached d c) (p : Nat) (hp : p ≤ d.length) (cur : Cursor) :
    (∀ acc ∈ [subnetMask, pktDns, pktNtp, dhcpServer], ∀ r, (acc c).run cursorOps ⟨d, p⟩ = (.ok r, cur) →
      Reached d r.2 ∧ cur.data = d ∧ cur.pos ≤ d.length) ∧
    (∀ acc ∈ [leaseTime, renewalTime, rebindingTime], ∀ r, (acc c).run cursorOps ⟨d, p⟩ = (.ok r, cur) →
      Reached d r.2 ∧ cur.data = d ∧ cur.pos ≤ d.length) ∧
    (∀ r, (msgType c).run cursorOps ⟨d, p⟩ = (.ok r, cur) → Reached d r.2 ∧ cur.data = d ∧ cur.pos ≤ d.length) := by
  have fixed : ∀ {n : Nat} {opt : UInt8} {r : Option Bytes × Cache} {cur : Cursor},
      (findOptionFixedSize n opt c).run cursorOps ⟨d, p⟩ = (.ok r, cur) → Reached d r.2 := by
    intro n opt r cur h
    obtain ⟨x, cur1, h1, h2⟩ := RProg.bind_inv h
    rcases hx : x.1 with _ | len
    · rw [hx] at h2
      cases h2
      exact .look hc hp h1
    · rw [hx] at h2
      dsimp only at h2
      split at h2
      · cases h2
        exact .look hc hp h1
      · obtain ⟨y, cur2, _, h3⟩ := RProg.bind_inv h2
        cases h3
        exact .look hc hp h1
  have list : ∀ {opt : UInt8} {r : Option Ipv4 × Cache} {cur : Cursor},
      (findOptionIpv4List opt c).run cursorOps ⟨d, p⟩ = (.ok r, cur) → Reached d r.2 := by
    intro opt r cur h
    obtain ⟨x, cur1, h1, h2⟩ := RProg.bind_inv h
    rcases hx : x.1 with _ | len
    · rw [hx] at h2
      cases h2
      exact .look hc hp h1
    · rw [hx] at h2
      dsimp only at h2
      split at h2
      · cases h2
        exact .look hc hp h1
      · obtain ⟨y, cur2, _, h3⟩ := RProg.bind_inv h2
        cases h3
        exact .look hc hp h1
  have after : ∀ {α : Type} {n : Nat} {opt : UInt8} {f : Option Bytes → α} {r : α × Cache} {cur : Cursor},
      (findOptionFixedSize n opt c >>= fun r => pure (f r.1, r.2)).run cursorOps ⟨d, p⟩ = (.ok r, cur) → Reached d r.2 := by
    intro α n opt f r cur h
    obtain ⟨x, cur1, h1, h2⟩ := RProg.bind_inv h
    cases h2
    exact fixed h1
  have pos : ∀ {α : Type} {prog : RProg α} {r : Except Err α}, prog.run cursorOps ⟨d, p⟩ = (r, cur) →
      cur.data = d ∧ cur.pos ≤ d.length := by
    intro α prog r h
    have := cur_inv prog ⟨d, p⟩ hp
    rw [h] at this
    exact this
  refine ⟨?_, ?_, ?_⟩
  · intro acc hacc r h
    refine ⟨?_, pos h⟩
    simp only [List.mem_cons, List.not_mem_nil, or_false] at hacc
    rcases hacc with rfl | rfl | rfl | rfl
    · exact after (f := fun o => o.map quad) h
    · exact list h
    · exact list h
    · exact list h
  · intro acc hacc r h
    refine ⟨?_, pos h⟩
    simp only [List.mem_cons, List.not_mem_nil, or_false] at hacc
    rcases hacc with rfl | rfl | rfl
    · exact after (f := fun o => o.map fun x => quadU32 (quad x)) h
    · exact after (f := fun o => o.map fun x => quadU32 (quad x)) h
    · exact after (f := fun o => o.map fun x => quadU32 (quad x)) h
  · intro r h
    exact ⟨after (f := fun o => o.bind fun x => match x with
      | [v] => (MsgType.tryFrom v).toOption
      | _ => none) h, pos h⟩

/-! ## A packet -/

/-- A reply with padding, an unknown option, a lease time, two name servers, a mask of the wrong length, and a message
type cut off. -/
def samplePacket : Bytes :=
  List.replicate 240 0 ++ [0, 0, 77, 2, 9, 9, 51, 4, 0, 0, 14, 16, 0, 6, 8, 8, 8, 8, 8, 8, 8, 4, 4, 1, 3, 255, 255, 255, 53, 1]

set_option maxRecDepth 4000 in
example : lookup samplePacket 51 = .found ⟨51, 4, 248⟩ ∧ lookup samplePacket 1 = .found ⟨1, 3, 265⟩ ∧
    lookup samplePacket 42 = .truncated ∧ contents samplePacket 1 (· == 4) 4 = .ok none ∧
    contents samplePacket 6 (fun n => n % 4 == 0 && 4 ≤ n) 4 = .ok (some [8, 8, 8, 8]) := by decide +kernel
set_option maxRecDepth 4000 in
example : samplePacket.length ≤ 65280 ∧ lookup (samplePacket.take 268 ++ [255]) 42 = .absent := by decide +kernel

/-- Looking up the lease time after the name servers, from the cache. -/
example : ∃ c c' cur cur', (pktDns .empty).run cursorOps ⟨samplePacket, 0⟩ = (.ok (some ⟨8, 8, 8, 8⟩, c), cur) ∧
    Reached samplePacket c ∧ c ≠ .empty ∧
    (leaseTime c).run cursorOps ⟨samplePacket, cur.pos⟩ = (.ok (some 3600, c'), cur') := by
  have hd : samplePacket.length ≤ 65280 := by decide +kernel
  refine ⟨[⟨77, 244, 2⟩, ⟨51, 248, 4⟩, ⟨6, 255, 8⟩] ++ List.replicate 6 ⟨0, 0, 0⟩,
    [⟨77, 244, 2⟩, ⟨51, 248, 4⟩, ⟨6, 255, 8⟩] ++ List.replicate 6 ⟨0, 0, 0⟩, ⟨samplePacket, 259⟩, ⟨samplePacket, 252⟩, ?_⟩
  have h : (pktDns .empty).run cursorOps ⟨samplePacket, 0⟩ = (.ok (some ⟨8, 8, 8, 8⟩,
    [⟨77, 244, 2⟩, ⟨51, 248, 4⟩, ⟨6, 255, 8⟩] ++ List.replicate 6 ⟨0, 0, 0⟩), ⟨samplePacket, 259⟩) := by decide +kernel
  refine ⟨h, ((C33_accessors samplePacket .empty .start 0 (Nat.zero_le _) _).1 pktDns (by simp) _ h).1, by decide, ?_⟩
  exact (by decide +kernel : (leaseTime ([⟨77, 244, 2⟩, ⟨51, 248, 4⟩, ⟨6, 255, 8⟩] ++ List.replicate 6 ⟨0, 0, 0⟩)).run
    cursorOps ⟨samplePacket, 259⟩ = (.ok (some 3600, [⟨77, 244, 2⟩, ⟨51, 248, 4⟩, ⟨6, 255, 8⟩] ++ List.replicate 6 ⟨0, 0, 0⟩),
      ⟨samplePacket, 252⟩))

end Verif.Thm
