import Verif.Model.Str
/-!
# C28: which names are text

The model's check for UTF-8 (after the table of the Unicode standard) accepts exactly the encodings of lists of characters, as Lean's
own library defines characters and their encoding.
-/
namespace Verif.Thm
open Verif

theorem byte_le (m : UInt8) (a : UInt8) : (decide (m ≤ a)) = decide (m.toNat ≤ a.toNat) := rfl
theorem byte_lt (m : UInt8) (a : UInt8) : (a < m) = (a.toNat < m.toNat) := rfl
theorem byte_eq (a m : UInt8) : (a == m) = decide (a.toNat = m.toNat) := by
  rw [Bool.eq_iff_iff, beq_iff_eq, decide_eq_true_iff, UInt8.toNat_inj]

/-- The four forms of a character. -/
inductive Utf8Form : Bytes → Nat → Prop
  | one (a : UInt8) (h : a.toNat < 128) : Utf8Form [a] a.toNat
  | two (a b : UInt8) (h : 0xC2 ≤ a.toNat ∧ a.toNat ≤ 0xDF) (hb : 0x80 ≤ b.toNat ∧ b.toNat ≤ 0xBF) : Utf8Form [a, b] ((a.toNat - 0xC0) * 64 + (b.toNat - 0x80))
  | three (a b c : UInt8) (h : 0xE0 ≤ a.toNat ∧ a.toNat ≤ 0xEF) (hb : 0x80 ≤ b.toNat ∧ b.toNat ≤ 0xBF) (hc : 0x80 ≤ c.toNat ∧ c.toNat ≤ 0xBF)
      (h0 : a.toNat = 0xE0 → 0xA0 ≤ b.toNat) (h1 : a.toNat = 0xED → b.toNat ≤ 0x9F) :
      Utf8Form [a, b, c] ((a.toNat - 0xE0) * 4096 + (b.toNat - 0x80) * 64 + (c.toNat - 0x80))
  | four (a b c d : UInt8) (h : 0xF0 ≤ a.toNat ∧ a.toNat ≤ 0xF4) (hb : 0x80 ≤ b.toNat ∧ b.toNat ≤ 0xBF) (hc : 0x80 ≤ c.toNat ∧ c.toNat ≤ 0xBF)
      (hd : 0x80 ≤ d.toNat ∧ d.toNat ≤ 0xBF) (h0 : a.toNat = 0xF0 → 0x90 ≤ b.toNat) (h1 : a.toNat = 0xF4 → b.toNat ≤ 0x8F) :
      Utf8Form [a, b, c, d] ((a.toNat - 0xF0) * 262144 + (b.toNat - 0x80) * 4096 + (c.toNat - 0x80) * 64 + (d.toNat - 0x80))

theorem isCont_iff (b : UInt8) : isCont b = true ↔ 0x80 ≤ b.toNat ∧ b.toNat ≤ 0xBF := by
  unfold isCont
  rw [Bool.and_eq_true, byte_le, byte_le, decide_eq_true_iff, decide_eq_true_iff]
  rfl

theorem utf8_head {h : Bytes} {v : Nat} (hh : Utf8Form h v) (rest : Bytes) : utf8Valid (h ++ rest) = utf8Valid rest := by
  cases hh with
  | one a h =>
    show utf8Valid (a :: rest) = _
    conv => lhs; unfold utf8Valid
    rw [if_pos (show a < 0x80 from h)]
  | two a b h hb =>
    show utf8Valid (a :: b :: rest) = _
    rw [utf8Valid, if_neg (show ¬ a < 0x80 from by rw [byte_lt]; show ¬ a.toNat < 128; omega), if_pos]
    · rw [(isCont_iff b).mpr hb, Bool.true_and]
    · rw [Bool.and_eq_true, byte_le, byte_le, decide_eq_true_iff, decide_eq_true_iff]; exact h
  | three a b c h hb hc h0 h1 =>
    show utf8Valid (a :: b :: c :: rest) = _
    rw [utf8Valid, if_neg (show ¬ a < 0x80 from by rw [byte_lt]; show ¬ a.toNat < 128; omega), if_neg, if_pos]
    · dsimp only
      rw [(isCont_iff b).mpr hb, (isCont_iff c).mpr hc]
      simp only [bne, byte_eq, byte_le, Bool.and_true]
      have e : ∀ x : Bool, x = true → (x && utf8Valid rest) = utf8Valid rest := by intro x hx; rw [hx, Bool.true_and]
      apply e
      simp only [Bool.or_eq_true, Bool.and_eq_true, decide_eq_true_iff, Bool.not_eq_true', decide_eq_false_iff_not]
      show (((a.toNat = 0xE0 ∧ 0xA0 ≤ b.toNat) ∧ b.toNat ≤ 0xBF) ∨ ((a.toNat = 0xED ∧ 0x80 ≤ b.toNat) ∧ b.toNat ≤ 0x9F)) ∨ (a.toNat ≠ 0xE0 ∧ a.toNat ≠ 0xED)
      omega
    · rw [Bool.and_eq_true, byte_le, byte_le, decide_eq_true_iff, decide_eq_true_iff]; exact h
    · rw [Bool.and_eq_true, byte_le, byte_le, decide_eq_true_iff, decide_eq_true_iff]
      show ¬ (0xC2 ≤ a.toNat ∧ a.toNat ≤ 0xDF); omega
  | four a b c d h hb hc hd h0 h1 =>
    show utf8Valid (a :: b :: c :: d :: rest) = _
    rw [utf8Valid, if_neg (show ¬ a < 0x80 from by rw [byte_lt]; show ¬ a.toNat < 128; omega), if_neg, if_neg, if_pos]
    · dsimp only
      rw [(isCont_iff b).mpr hb, (isCont_iff c).mpr hc, (isCont_iff d).mpr hd]
      simp only [bne, byte_eq, byte_le, Bool.and_true]
      have e : ∀ x : Bool, x = true → (x && utf8Valid rest) = utf8Valid rest := by intro x hx; rw [hx, Bool.true_and]
      apply e
      simp only [Bool.or_eq_true, Bool.and_eq_true, decide_eq_true_iff, Bool.not_eq_true', decide_eq_false_iff_not]
      show (((a.toNat = 0xF0 ∧ 0x90 ≤ b.toNat) ∧ b.toNat ≤ 0xBF) ∨ ((a.toNat = 0xF4 ∧ 0x80 ≤ b.toNat) ∧ b.toNat ≤ 0x8F)) ∨ (a.toNat ≠ 0xF0 ∧ a.toNat ≠ 0xF4)
      omega
    · rw [Bool.and_eq_true, byte_le, byte_le, decide_eq_true_iff, decide_eq_true_iff]; exact h
    · rw [Bool.and_eq_true, byte_le, byte_le, decide_eq_true_iff, decide_eq_true_iff]
      show ¬ (0xE0 ≤ a.toNat ∧ a.toNat ≤ 0xEF); omega
    · rw [Bool.and_eq_true, byte_le, byte_le, decide_eq_true_iff, decide_eq_true_iff]
      show ¬ (0xC2 ≤ a.toNat ∧ a.toNat ≤ 0xDF); omega

/-- What is accepted is empty or begins with one of the four forms. -/
theorem utf8_split (bs : Bytes) (h : utf8Valid bs = true) : bs = [] ∨ ∃ hd v rest, bs = hd ++ rest ∧ Utf8Form hd v ∧ utf8Valid rest = true := by
  cases bs with
  | nil => exact .inl rfl
  | cons a rest =>
    right
    unfold utf8Valid at h
    by_cases h1 : a < 0x80
    · rw [if_pos h1] at h
      exact ⟨[a], _, rest, rfl, .one a h1, h⟩
    rw [if_neg h1] at h
    by_cases h2 : (0xC2 ≤ a && a ≤ 0xDF) = true
    · rw [if_pos h2] at h
      rw [Bool.and_eq_true, byte_le, byte_le, decide_eq_true_iff, decide_eq_true_iff] at h2
      rcases rest with _ | ⟨b, r⟩
      · cases h
      · rw [Bool.and_eq_true] at h
        exact ⟨[a, b], _, r, rfl, .two a b h2 ((isCont_iff b).mp h.1), h.2⟩
    rw [if_neg h2] at h
    by_cases h3 : (0xE0 ≤ a && a ≤ 0xEF) = true
    · rw [if_pos h3] at h
      rw [Bool.and_eq_true, byte_le, byte_le, decide_eq_true_iff, decide_eq_true_iff] at h3
      rcases rest with _ | ⟨b, _ | ⟨c, r⟩⟩
      · cases h
      · cases h
      · simp only [bne, byte_eq, byte_le, Bool.and_eq_true, Bool.or_eq_true, decide_eq_true_iff, Bool.not_eq_true', decide_eq_false_iff_not, isCont_iff] at h
        obtain ⟨⟨k1, k2⟩, k3⟩ := h
        change (((a.toNat = 0xE0 ∧ 0xA0 ≤ b.toNat) ∧ b.toNat ≤ 0xBF) ∨ ((a.toNat = 0xED ∧ 0x80 ≤ b.toNat) ∧ b.toNat ≤ 0x9F)) ∨
          ((a.toNat ≠ 0xE0 ∧ a.toNat ≠ 0xED) ∧ 0x80 ≤ b.toNat ∧ b.toNat ≤ 0xBF) at k1
        exact ⟨[a, b, c], _, r, rfl, .three a b c h3 (by omega) k2 (by omega) (by omega), k3⟩
    rw [if_neg h3] at h
    by_cases h4 : (0xF0 ≤ a && a ≤ 0xF4) = true
    · rw [if_pos h4] at h
      rw [Bool.and_eq_true, byte_le, byte_le, decide_eq_true_iff, decide_eq_true_iff] at h4
      rcases rest with _ | ⟨b, _ | ⟨c, _ | ⟨d, r⟩⟩⟩
      · cases h
      · cases h
      · cases h
      · simp only [bne, byte_eq, byte_le, Bool.and_eq_true, Bool.or_eq_true, decide_eq_true_iff, Bool.not_eq_true', decide_eq_false_iff_not, isCont_iff] at h
        obtain ⟨⟨⟨k1, k2⟩, k3⟩, k4⟩ := h
        change (((a.toNat = 0xF0 ∧ 0x90 ≤ b.toNat) ∧ b.toNat ≤ 0xBF) ∨ ((a.toNat = 0xF4 ∧ 0x80 ≤ b.toNat) ∧ b.toNat ≤ 0x8F)) ∨
          ((a.toNat ≠ 0xF0 ∧ a.toNat ≠ 0xF4) ∧ 0x80 ≤ b.toNat ∧ b.toNat ≤ 0xBF) at k1
        exact ⟨[a, b, c, d], _, r, rfl, .four a b c d h4 (by omega) k2 k3 (by omega) (by omega), k4⟩
    rw [if_neg h4] at h
    cases h

theorem ofNat_of {x : UInt8} {n : Nat} (h : n = x.toNat) : UInt8.ofNat n = x := by rw [h]; exact UInt8.ofNat_toNat

/-- The forms are the encodings of the characters. -/
theorem head_char {hd : Bytes} {v : Nat} (h : Utf8Form hd v) : ∃ c : Char, hd = String.utf8EncodeChar c := by
  have hv : v < 0xd800 ∨ (0xdfff < v ∧ v < 0x110000) := by cases h <;> omega
  have hc : (Char.ofNatAux v hv).val.toNat = v := rfl
  refine ⟨Char.ofNatAux v hv, ?_⟩
  unfold String.utf8EncodeChar
  dsimp only
  rw [hc]
  cases h with
  | one a h => rw [if_pos (by omega), UInt8.ofNat_toNat]
  | two a b h hb =>
    rw [if_neg (by omega), if_pos (by omega), ofNat_of (x := a) (by omega), ofNat_of (x := b) (by omega)]
  | three a b c h hb hc h0 h1 =>
    rw [if_neg (by omega), if_neg (by omega), if_pos (by omega), ofNat_of (x := a) (by omega), ofNat_of (x := b) (by omega), ofNat_of (x := c) (by omega)]
  | four a b c d h hb hc hd h0 h1 =>
    rw [if_neg (by omega), if_neg (by omega), if_neg (by omega), ofNat_of (x := a) (by omega), ofNat_of (x := b) (by omega), ofNat_of (x := c) (by omega),
      ofNat_of (x := d) (by omega)]

theorem char_head (c : Char) : ∃ v, Utf8Form (String.utf8EncodeChar c) v := by
  have hv : c.val.toNat < 0xd800 ∨ (0xdfff < c.val.toNat ∧ c.val.toNat < 0x110000) := c.valid
  unfold String.utf8EncodeChar
  dsimp only
  generalize c.val.toNat = v at hv
  have e : ∀ n, n < 256 → (UInt8.ofNat n).toNat = n := fun n hn => by rw [UInt8.toNat_ofNat']; omega
  by_cases h1 : v ≤ 0x7f
  · rw [if_pos h1]
    exact ⟨_, .one _ (by rw [e _ (by omega)]; omega)⟩
  rw [if_neg h1]
  by_cases h2 : v ≤ 0x7ff
  · rw [if_pos h2]
    refine ⟨_, .two _ _ ?_ ?_⟩ <;> rw [e _ (by omega)] <;> omega
  rw [if_neg h2]
  by_cases h3 : v ≤ 0xffff
  · rw [if_pos h3]
    refine ⟨_, .three _ _ _ ?_ ?_ ?_ ?_ ?_⟩ <;> (repeat rw [e _ (by omega)]) <;> omega
  · rw [if_neg h3]
    refine ⟨_, .four _ _ _ _ ?_ ?_ ?_ ?_ ?_ ?_⟩ <;> (repeat rw [e _ (by omega)]) <;> omega

/-- C28: the bytes accepted as text are exactly the UTF-8 encodings of lists of characters. -/
theorem C28_utf8 (bs : Bytes) : utf8Valid bs = true ↔ ∃ cs : List Char, bs = cs.flatMap String.utf8EncodeChar := by
  constructor
  · intro h
    induction hn : bs.length using Nat.strongRecOn generalizing bs with
    | ind n ih =>
      rcases utf8_split bs h with rfl | ⟨hd, v, rest, rfl, hh, hr⟩
      · exact ⟨[], rfl⟩
      · have hl : 0 < hd.length := by cases hh <;> simp
        rw [List.length_append] at hn
        obtain ⟨cs, hcs⟩ := ih rest.length (by omega) rest hr rfl
        obtain ⟨c, hc⟩ := head_char hh
        exact ⟨c :: cs, by rw [List.flatMap_cons, ← hc, ← hcs]⟩
  · rintro ⟨cs, rfl⟩
    induction cs with
    | nil => rfl
    | cons c cs ih =>
      obtain ⟨v, hv⟩ := char_head c
      rw [List.flatMap_cons, utf8_head hv]
      exact ih

/-- C28, in terms of Lean's strings. -/
theorem C28_utf8_string (bs : Bytes) : utf8Valid bs = true ↔ bs.toByteArray.IsValidUTF8 := by
  rw [C28_utf8]
  constructor
  · rintro ⟨cs, rfl⟩
    exact ⟨cs, rfl⟩
  · rintro ⟨cs, h⟩
    exact ⟨cs, by
      have := congrArg (fun x : ByteArray => x.data.toList) h
      simpa [List.utf8Encode] using this⟩

/-- `é`, `€` and `😀` are accepted, a surrogate and an overlong encoding are not. -/
example : utf8Valid [0xC3, 0xA9, 0xE2, 0x82, 0xAC, 0xF0, 0x9F, 0x98, 0x80] = true ∧ utf8Valid [0xED, 0xA0, 0x80] = false ∧ utf8Valid [0xC0, 0x80] = false := by decide
example : [0xC3, 0xA9, 0xE2, 0x82, 0xAC, 0xF0, 0x9F, 0x98, 0x80] = "é€😀".toList.flatMap String.utf8EncodeChar := by decide

end Verif.Thm
