import Verif.Proof.Dns
import Verif.Proof.Table
import Mathlib.Data.Fintype.Pigeonhole
/-!
# C27 – C31: decoding DNS messages
-/
namespace Verif.Thm
open Verif Hl Spec Dns Spec.Dns

/-! ## C28 -/

/-- C28: for every message holding a name that is followed by at least one byte (in a DNS message every
name is followed by a type), reading the name yields its labels joined with dots if they fit the caller's
buffer of `cap` bytes and are UTF-8, and nothing otherwise; and leaves the stream right after the name
where it stands.  `fuel` only bounds the number of labels and pointers followed. -/
theorem C28_read_name (m : Bytes) (p : Nat) (ls : List Bytes) (stop n : Nat) (h : NameAt m p ls stop n)
    (hm : m.length < 65536) (hstop : stop < m.length) (cap fuel : Nat) (hf : n ≤ fuel) :
    (readLabels fuel cap).run cursorOps ⟨m, p⟩ =
      (.ok (if ([46].intercalate ls).length ≤ cap ∧ utf8Valid ([46].intercalate ls) = true
        then some ([46].intercalate ls) else none), ⟨m, stop⟩) := by
  have := loop_name h hm cap fuel hf [] [] 0 (fun _ => rfl) (Nat.zero_le _) (.inr hstop)
  unfold readLabels
  refine this.trans ?_
  rw [joined_nil ls (Verif.NameAt.labels h), if_neg (by simp)]
  unfold nameResult fromUtf8
  by_cases h1 : ([46].intercalate ls).length ≤ cap
  · by_cases h2 : utf8Valid ([46].intercalate ls) = true
    · rw [if_pos h1, if_pos h2, if_pos ⟨h1, h2⟩]
    · rw [if_pos h1, if_neg h2, if_neg (fun h => h2 h.2)]
  · rw [if_neg h1, if_neg (fun h => h1 h.1)]

/-- Names of host name characters are UTF-8. -/
theorem C28_ascii_is_utf8 (bs : Bytes) (h : ∀ b ∈ bs, b.toNat < 128) : utf8Valid bs = true := by
  induction bs with
  | nil => rfl
  | cons b bs ih =>
    unfold utf8Valid
    rw [if_pos (show b < 128 from h b (by simp))]
    exact ih fun x hx => h x (List.mem_cons_of_mem _ hx)

/-- `a.bc` at offset 4, the second label reached through a pointer. -/
example : NameAt [2, 98, 99, 0, 1, 97, 0xC0, 0x00, 1] 4 [[97], [98, 99]] 8 4 :=
  .label (b := 1) rfl (by decide) (by decide) (by decide)
    (.pointer (a := 0xC0) (b := 0x00) rfl (by decide) rfl
      (.label (b := 2) rfl (by decide) (by decide) (by decide) (.root rfl)))

/-- The case of the theorem for that message: `a.bc`, and the position after the pointer. -/
example : (readLabels 4 4).run cursorOps ⟨[2, 98, 99, 0, 1, 97, 0xC0, 0x00, 1], 4⟩
    = (.ok (some [97, 46, 98, 99]), ⟨[2, 98, 99, 0, 1, 97, 0xC0, 0x00, 1], 8⟩) := by decide

/-- Too small a buffer. -/
example : (readLabels 4 3).run cursorOps ⟨[2, 98, 99, 0, 1, 97, 0xC0, 0x00, 1], 4⟩
    = (.ok none, ⟨[2, 98, 99, 0, 1, 97, 0xC0, 0x00, 1], 8⟩) := by decide

/-! ## C29 -/

/-- Where reading a name goes on after the byte at `p`; `none` if it ends there (successfully or not). -/
def next (m : Bytes) (p : Nat) : Option Nat :=
  match m[p]?, m[p + 1]? with
  | none, _ => none
  | some a, some b =>
    if 64 ≤ a.toNat then
      if (a.toNat * 256 + b.toNat) % 16384 ≤ m.length then some ((a.toNat * 256 + b.toNat) % 16384) else none
    else if a.toNat = 0 then none
    else if p + 1 + a.toNat ≤ m.length then some (p + 1 + a.toNat) else none
  | some a, none =>
    if a.toNat % 64 = 0 then none else if p + a.toNat % 64 ≤ m.length then some (p + a.toNat % 64) else none

/-- Where reading is after `n` steps. -/
def after (m : Bytes) (p : Nat) : Nat → Option Nat
  | 0 => some p
  | n + 1 => (next m p).bind fun q => after m q n

theorem labelsDone_not_hang (m : Bytes) (q cap idx : Nat) (buf : Bytes) (seekTo : UInt16) :
    ((labelsDone cap idx buf seekTo).run cursorOps ⟨m, q⟩).1 ≠ .error .hang := by
  unfold labelsDone
  by_cases h0 : seekTo ≠ 0
  · rw [if_pos h0]
    by_cases h : seekTo.toNat ≤ m.length
    · rw [RProg.bind_ok (cur_seekStart h)]; exact nofun
    · rw [RProg.bind_error (cur_seekStart_eof h)]; exact nofun
  · rw [if_neg h0]; exact nofun

theorem next_step (m : Bytes) (p cap idx : Nat) (buf : Bytes) (seekTo : UInt16) :
    (∃ q idx' buf' seekTo', next m p = some q ∧ ∀ fuel,
      (readLabelsLoop cap (fuel + 1) idx buf seekTo).run cursorOps ⟨m, p⟩
        = (readLabelsLoop cap fuel idx' buf' seekTo').run cursorOps ⟨m, q⟩) ∨
    (next m p = none ∧ ∃ out : Except Err (Option Bytes) × Cursor, out.1 ≠ .error .hang ∧ ∀ fuel,
      (readLabelsLoop cap (fuel + 1) idx buf seekTo).run cursorOps ⟨m, p⟩ = out) := by
  unfold next
  rcases ha : m[p]? with _ | a
  · exact .inr ⟨rfl, (.error .unexpectedEof, ⟨m, p⟩), nofun, fun fuel => run_loop_eof ha cap fuel idx buf seekTo⟩
  · rcases hb : m[p + 1]? with _ | b
    · dsimp only
      by_cases h0 : a.toNat % 64 = 0
      · refine .inr ⟨if_pos h0, _, labelsDone_not_hang m p cap idx buf seekTo, fun fuel => ?_⟩
        rw [run_loop_last ha hb, if_pos h0]
      · rw [if_neg h0]
        by_cases h1 : p + a.toNat % 64 ≤ m.length
        · exact .inl ⟨_, _, _, _, if_pos h1,
            fun fuel => (run_loop_last ha hb cap fuel idx buf seekTo).trans ((if_neg h0).trans (if_pos h1))⟩
        · refine .inr ⟨if_neg h1, (.error .unexpectedEof, ⟨m, p⟩), nofun, fun fuel => ?_⟩
          rw [run_loop_last ha hb, if_neg h0, if_neg h1]
    · dsimp only
      by_cases h64 : 64 ≤ a.toNat
      · rw [if_pos h64]
        by_cases h1 : (a.toNat * 256 + b.toNat) % 16384 ≤ m.length
        · exact .inl ⟨_, _, _, _, if_pos h1, fun fuel => (run_loop_ptr ha hb h64 cap fuel idx buf seekTo).trans (if_pos h1)⟩
        · refine .inr ⟨if_neg h1, (.error .unexpectedEof, ⟨m, p + 2⟩), nofun, fun fuel => ?_⟩
          rw [run_loop_ptr ha hb h64, if_neg h1]
      · rw [if_neg h64]
        by_cases h0 : a.toNat = 0
        · refine .inr ⟨if_pos h0, _, labelsDone_not_hang m (p + 1) cap idx buf seekTo, fun fuel => ?_⟩
          rw [run_loop_label ha hb (by omega), if_pos h0]
        · rw [if_neg h0]
          by_cases h1 : p + 1 + a.toNat ≤ m.length
          · exact .inl ⟨_, _, _, _, if_pos h1, fun fuel =>
              (run_loop_label ha hb (by omega) cap fuel idx buf seekTo).trans ((if_neg h0).trans (if_pos h1))⟩
          · refine .inr ⟨if_neg h1, (.error .unexpectedEof, ⟨m, p + 1⟩), nofun, fun fuel => ?_⟩
            rw [run_loop_label ha hb (by omega), if_neg h0, if_neg h1]

theorem hang_iff (m : Bytes) (p cap fuel idx : Nat) (buf : Bytes) (seekTo : UInt16) :
    ((readLabelsLoop cap fuel idx buf seekTo).run cursorOps ⟨m, p⟩).1 = .error .hang ↔ (after m p fuel).isSome := by
  induction fuel generalizing p idx buf seekTo with
  | zero => exact ⟨fun _ => rfl, fun _ => rfl⟩
  | succ n ih =>
    rcases next_step m p cap idx buf seekTo with ⟨q, i, b, s, hq, hr⟩ | ⟨hq, out, ho, hr⟩
    · rw [hr]; simp only [after, hq, Option.bind_some]; exact ih q i b s
    · rw [hr]; simp only [after, hq, Option.bind_none]
      exact ⟨fun h => absurd h ho, nofun⟩

theorem same_result (m : Bytes) (p cap idx : Nat) (buf : Bytes) (seekTo : UInt16) (n fuel : Nat) (h : after m p n = none)
    (hf : n ≤ fuel) :
    (readLabelsLoop cap fuel idx buf seekTo).run cursorOps ⟨m, p⟩
      = (readLabelsLoop cap n idx buf seekTo).run cursorOps ⟨m, p⟩ := by
  induction n generalizing p idx buf seekTo fuel with
  | zero => exact absurd h nofun
  | succ n ih =>
    obtain ⟨f, rfl⟩ : ∃ f, fuel = f + 1 := ⟨fuel - 1, by omega⟩
    rcases next_step m p cap idx buf seekTo with ⟨q, i, b, s, hq, hr⟩ | ⟨hq, out, ho, hr⟩
    · rw [hr, hr]
      simp only [after, hq, Option.bind_some] at h
      exact ih q i b s f h (by omega)
    · rw [hr, hr]

theorem after_add (m : Bytes) (p i j : Nat) : after m p (i + j) = (after m p i).bind fun q => after m q j := by
  induction i generalizing p with
  | zero => simp [after]
  | succ n ih =>
    rw [show n + 1 + j = n + j + 1 by omega]
    simp only [after]
    rcases next m p with _ | q
    · rfl
    · exact ih q

theorem next_lt {m : Bytes} {p q : Nat} (h : next m p = some q) : p < m.length := by
  rcases hp : m[p]? with _ | a
  · unfold next at h; rw [hp] at h; simp at h
  · exact getElem?_lt hp

/-- If reading goes on for more steps than the message has bytes, it goes on forever. -/
theorem after_forever (m : Bytes) (p : Nat) (h : (after m p (m.length + 1)).isSome) (n : Nat) : (after m p n).isSome := by
  have some_le : ∀ {p i j}, i ≤ j → (after m p j).isSome → (after m p i).isSome := by
    intro p i j hij hj
    rw [show j = i + (j - i) by omega, after_add] at hj
    rcases hi : after m p i with _ | q
    · rw [hi] at hj; exact absurd hj nofun
    · rfl
  have hlt : ∀ i : Fin (m.length + 1), ∃ q, q < m.length ∧ after m p i.val = some q := by
    intro i
    have h1 : (after m p (i.val + 1)).isSome := some_le (by have := i.isLt; omega) h
    rw [after_add] at h1
    rcases hi : after m p i.val with _ | q
    · rw [hi] at h1; exact absurd h1 nofun
    · refine ⟨q, ?_, rfl⟩
      rw [hi] at h1
      simp only [Option.bind_some, after] at h1
      rcases hq : next m q with _ | r
      · rw [hq] at h1; exact absurd h1 nofun
      · exact next_lt hq
  let f : Fin (m.length + 1) → Fin m.length := fun i => ⟨(hlt i).choose, (hlt i).choose_spec.1⟩
  have hf : ∀ i, after m p i.val = some (f i).val := fun i => (hlt i).choose_spec.2
  obtain ⟨a, b, hab, heq⟩ := Fintype.exists_ne_map_eq_of_card_lt f (by simp)
  have cyc : ∃ i d x, 0 < d ∧ after m p i = some x ∧ after m x d = some x := by
    have aux : ∀ a b : Fin (m.length + 1), a.val < b.val → f a = f b →
        ∃ i d x, 0 < d ∧ after m p i = some x ∧ after m x d = some x := by
      intro a b hlt heq
      refine ⟨a.val, b.val - a.val, (f a).val, by omega, hf a, ?_⟩
      have := hf b
      rw [show b.val = a.val + (b.val - a.val) by omega, after_add, hf a] at this
      simp only [Option.bind_some] at this
      rw [this, heq]
    rcases Nat.lt_or_gt_of_ne (fun h => hab (Fin.ext h)) with h | h
    · exact aux a b h heq
    · exact aux b a h heq.symm
  obtain ⟨i, d, x, hd, hi, hx⟩ := cyc
  have rep : ∀ k, after m x (d * k) = some x := by
    intro k
    induction k with
    | zero => rfl
    | succ k ih => rw [Nat.mul_succ, after_add, ih]; exact hx
  have : after m p (i + d * n) = some x := by rw [after_add, hi]; exact rep n
  refine some_le (j := i + d * n) ?_ (by rw [this]; rfl)
  have : n ≤ d * n := Nat.le_mul_of_pos_left n hd
  omega

/-- C29 does not hold: a name that is a pointer to itself keeps the decoder busy forever (the model's loop
uses up any number of iterations). -/
theorem C29_self_pointer_never_returns_partial (cap fuel : Nat) :
    ((readLabels fuel cap).run cursorOps ⟨[0xC0, 0x00], 0⟩).1 = .error .hang := by
  unfold readLabels
  rw [hang_iff]
  have : ∀ n, after [0xC0, 0x00] 0 n = some 0 := by
    intro n
    induction n with
    | zero => rfl
    | succ n ih => exact ih
  rw [this]; rfl

/-- C29, what holds for every message: either decoding the name at `p` never returns, or it returns after at
most `length + 1` iterations. -/
theorem C29_returns_within_length_partial (m : Bytes) (p cap : Nat) :
    (∀ fuel, ((readLabels fuel cap).run cursorOps ⟨m, p⟩).1 = .error .hang) ∨
    (∀ fuel, m.length + 1 ≤ fuel → ((readLabels fuel cap).run cursorOps ⟨m, p⟩).1 ≠ .error .hang ∧
      (readLabels fuel cap).run cursorOps ⟨m, p⟩ = (readLabels (m.length + 1) cap).run cursorOps ⟨m, p⟩) := by
  by_cases h : (after m p (m.length + 1)).isSome
  · exact .inl fun fuel => (hang_iff ..).mpr (after_forever m p h fuel)
  · have hn : after m p (m.length + 1) = none := by simpa using h
    refine .inr fun fuel hf => ?_
    have e := same_result m p cap 0 [] 0 (m.length + 1) fuel hn hf
    refine ⟨?_, e⟩
    unfold readLabels
    rw [e, Ne, hang_iff]
    exact h

/-- C29 for messages without pointers (all bytes below 64): decoding always returns within `length + 1`
iterations. -/
theorem C29_no_pointers_partial (m : Bytes) (hm : ∀ b ∈ m, b.toNat < 64) (p cap fuel : Nat) (hf : m.length + 1 ≤ fuel) :
    ((readLabels fuel cap).run cursorOps ⟨m, p⟩).1 ≠ .error .hang := by
  have grow : ∀ n p q, after m p n = some q → p + n ≤ q := by
    intro n
    induction n with
    | zero => intro p q h; simp only [after] at h; injection h with h; omega
    | succ n ih =>
      intro p q h
      simp only [after] at h
      rcases hr : next m p with _ | r
      · rw [hr] at h; exact absurd h nofun
      · rw [hr] at h
        have := ih r q h
        have hpr : p < r := by
          unfold next at hr
          rcases ha : m[p]? with _ | a
          · rw [ha] at hr; simp at hr
          · have h64 := hm a (List.mem_of_getElem? ha)
            rw [ha] at hr
            rcases hb : m[p + 1]? with _ | b
            · rw [hb] at hr
              dsimp only at hr
              split at hr
              · exact absurd hr nofun
              · split at hr
                · injection hr with hr; omega
                · exact absurd hr nofun
            · rw [hb] at hr
              dsimp only at hr
              rw [if_neg (by omega)] at hr
              split at hr
              · exact absurd hr nofun
              · split at hr
                · injection hr with hr; omega
                · exact absurd hr nofun
        omega
  rcases C29_returns_within_length_partial m p cap with h | h
  · have := h (m.length + 2)
    unfold readLabels at this
    rw [hang_iff] at this
    rcases hq : after m p (m.length + 2) with _ | q
    · rw [hq] at this; exact absurd this nofun
    · have h1 := grow _ _ _ hq
      rw [show m.length + 2 = (m.length + 1) + 1 by omega, after_add] at hq
      rcases hr : after m p (m.length + 1) with _ | r
      · rw [hr] at hq; exact absurd hq nofun
      · rw [hr] at hq
        simp only [Option.bind_some, after] at hq
        rcases hs : next m r with _ | s
        · rw [hs] at hq; exact absurd hq nofun
        · have := next_lt hs
          have := grow _ _ _ hr
          omega
  · exact (h fuel hf).1

/-- C29 for RFC 1035 names: decoding returns, with one iteration per label, pointer and terminator. -/
theorem C29_valid_names_partial (m : Bytes) (p : Nat) (ls : List Bytes) (stop n : Nat) (h : NameAt m p ls stop n)
    (cap fuel : Nat) (hf : n ≤ fuel) :
    ((readLabels fuel cap).run cursorOps ⟨m, p⟩).1 ≠ .error .hang := by
  unfold readLabels
  rw [Ne, hang_iff]
  have : after m p n = none := by
    clear hf
    induction h with
    | @root p h1 =>
      have : next m p = none := by
        unfold next; rw [h1]
        rcases m[p + 1]? with _ | b <;> simp
      simp only [after, this]; rfl
    | @label p b ls stop n h1 h2 h3 h4 hn ih =>
      have : next m p = some (p + 1 + b.toNat) := by
        unfold next
        rw [h1, List.getElem?_eq_getElem (show p + 1 < m.length by omega)]
        dsimp only
        rw [if_neg (by omega), if_neg (by omega), if_pos h4]
      simp only [after, this]; exact ih
    | @pointer p a b ls stop n h1 h2 h3 hn ih =>
      have hal := a.toNat_lt
      have hbl := b.toNat_lt
      have htgt : (a.toNat * 256 + b.toNat) % 16384 = (a.toNat - 192) * 256 + b.toNat := by omega
      have hle : (a.toNat - 192) * 256 + b.toNat ≤ m.length := by
        cases hn with
        | root h => exact Nat.le_of_lt (getElem?_lt h)
        | label h => exact Nat.le_of_lt (getElem?_lt h)
        | pointer h => exact Nat.le_of_lt (getElem?_lt h)
      have : next m p = some ((a.toNat - 192) * 256 + b.toNat) := by
        unfold next
        rw [h1, h3]
        dsimp only
        rw [if_pos (by omega), htgt, if_pos hle]
      simp only [after, this]; exact ih
  intro hs
  rw [show fuel = n + (fuel - n) by omega, after_add, this] at hs
  exact absurd hs nofun

/-! ## C31 -/

/-- C31: record types convert from and to exactly the listed codes. -/
theorem C31_qtype_codes : IsCodeTable Qtype.code Qtype.tryFrom := by
  refine isCodeTable_of_check _ _ (by intro v; cases v <;> decide) fun c => ?_
  by_cases hc : c < 256
  · have key : ∀ n : Fin 256, tableCheck Qtype.code Qtype.tryFrom (UInt16.ofNat n.val) = true := by
      decide +kernel
    have := key ⟨c.toNat, hc⟩
    simpa using this
  · have h' : ∀ n : UInt16, n < 256 → ¬ (c = n) := fun n hn h => hc (h ▸ hn)
    simp only [tableCheck, Qtype.tryFrom]
    rw [if_neg (h' 1 (by decide)), if_neg (h' 2 (by decide)), if_neg (h' 3 (by decide)), if_neg (h' 4 (by decide)),
      if_neg (h' 5 (by decide)), if_neg (h' 6 (by decide)), if_neg (h' 7 (by decide)), if_neg (h' 8 (by decide)),
      if_neg (h' 9 (by decide)), if_neg (h' 10 (by decide)), if_neg (h' 11 (by decide)), if_neg (h' 12 (by decide)),
      if_neg (h' 13 (by decide)), if_neg (h' 14 (by decide)), if_neg (h' 15 (by decide)), if_neg (h' 16 (by decide)),
      if_neg (h' 28 (by decide)), if_neg (h' 33 (by decide)), if_neg (h' 252 (by decide)), if_neg (h' 253 (by decide)),
      if_neg (h' 254 (by decide)), if_neg (h' 255 (by decide))]
    simp

/-- The codes of RFC 1035 sections 3.2.2 and 3.2.3, RFC 3596 and RFC 2782. -/
theorem C31_qtype_values : [Qtype.A, .NS, .MD, .MF, .CNAME, .SOA, .MB, .MG, .MR, .NULL, .WKS, .PTR, .HINFO, .MINFO, .MX,
    .TXT, .AAAA, .SVR, .AXFR, .MAILB, .MAILA, .ALL].map (fun q => q.code.toNat)
      = [1, 2, 3, 4, 5, 6, 7, 8, 9, 10, 11, 12, 13, 14, 15, 16, 28, 33, 252, 253, 254, 255] := by decide

/-- The two bytes a question carries are the code, most significant first. -/
theorem C31_bytes (q : Qtype) (c : Qclass) : num q.highByte q.lowByte = q.code.toNat ∧ num c.highByte c.lowByte = c.code.toNat := by
  constructor
  · cases q <;> decide
  · cases c <;> decide

/-- C31 does not hold for classes: 0x0081 is not a class code, with or without the top bit, and is accepted
as IN; and a rejected code is not handed back. -/
theorem C31_qclass_wrong_mask_partial : Qclass.tryFrom 0x0081 = .ok .IN ∧ Qclass.tryFrom 0x0080 = .error 0 := by decide

/-- C31, what holds for classes: a code is accepted according to its low 7 bits. -/
theorem C31_qclass_partial (v : UInt16) (c : Qclass) : Qclass.tryFrom v = .ok c ↔ v.toNat % 128 = c.code.toNat := by
  have e : (v &&& 0x7F).toNat = v.toNat % 128 := by
    have : (v &&& 0x7F).toNat = v.toNat &&& 127 := UInt16.toNat_and _ _
    rw [this, show 127 = 2 ^ 7 - 1 by rfl, Nat.and_two_pow_sub_one_eq_mod]
  have eq : ∀ n : UInt16, (v &&& 0x7F = n) ↔ v.toNat % 128 = n.toNat := by
    intro n
    rw [← e]
    exact ⟨fun h => by rw [h], u16_ext⟩
  rw [← eq]
  unfold Qclass.tryFrom
  dsimp only
  generalize v &&& 0x7F = x
  constructor
  · intro h
    repeat' (split at h)
    all_goals first | (injection h with h; subst h; assumption) | exact absurd h nofun
  · intro h; subst h; cases c <;> rfl

/-- C31 for classes, when bits 7 to 14 are clear (as in every code a server should send): accepted exactly
when the code without the top bit is one of the listed codes. -/
theorem C31_qclass_small_partial (v : UInt16) (hv : v.toNat % 32768 < 128) (c : Qclass) :
    Qclass.tryFrom v = .ok c ↔ v.toNat % 32768 = c.code.toNat := by
  rw [C31_qclass_partial, show v.toNat % 128 = v.toNat % 32768 by omega]

/-- The listed class codes. -/
theorem C31_qclass_values : [Qclass.IN, .CS, .CH, .HS, .ANY].map (fun q => q.code.toNat) = [1, 2, 3, 4, 5] := by decide

/-- Response codes convert from and to exactly the codes 0 to 5. -/
theorem C31_response_codes : IsCodeTable ResponseCode.code ResponseCode.tryFrom :=
  isCodeTable_of_check _ _ (by intro v; cases v <;> decide) (forall_u8 (by decide +kernel))

end Verif.Thm
