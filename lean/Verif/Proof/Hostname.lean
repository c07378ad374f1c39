import Verif.Model.Hl.Hostname
import Verif.Spec.Hostname
import Verif.Proof.Basic
namespace Verif
open Hl Spec

theorem isValidChar_iff (b : UInt8) : isValidChar b = true ↔ isAlnum b ∨ b = 45 ∨ b = 46 := by
  unfold Hl.isValidChar isAlnum
  simp only [Bool.or_eq_true, Bool.and_eq_true, decide_eq_true_eq, beq_iff_eq, UInt8.le_iff_toNat_le]
  simp only [show (48 : UInt8).toNat = 48 from rfl, show (57 : UInt8).toNat = 57 from rfl,
    show (65 : UInt8).toNat = 65 from rfl, show (90 : UInt8).toNat = 90 from rfl,
    show (97 : UInt8).toNat = 97 from rfl, show (122 : UInt8).toNat = 122 from rfl]
  constructor
  · rintro ((((h | h) | h) | h) | h)
    · exact .inl (.inl h)
    · exact .inl (.inr (.inl h))
    · exact .inl (.inr (.inr h))
    · exact .inr (.inl h)
    · exact .inr (.inr h)
  · rintro ((h | h | h) | h | h)
    · exact .inl (.inl (.inl (.inl h)))
    · exact .inl (.inl (.inl (.inr h)))
    · exact .inl (.inl (.inr h))
    · exact .inl (.inr h)
    · exact .inr h

theorem splitDot_ne_nil (s : Bytes) : splitDot s ≠ [] := by
  induction s with
  | nil => simp [splitDot]
  | cons x xs ih =>
    unfold splitDot
    split
    · simp
    · split <;> simp

theorem splitDot_cons (x : UInt8) (xs : Bytes) (h : x ≠ 46) :
    ∃ l ls, splitDot xs = l :: ls ∧ splitDot (x :: xs) = (x :: l) :: ls := by
  rcases e : splitDot xs with _ | ⟨l, ls⟩
  · exact absurd e (splitDot_ne_nil xs)
  · refine ⟨l, ls, rfl, ?_⟩
    unfold splitDot
    rw [if_neg (by simpa using h), e]

theorem intercalate_cons2 (a b : Bytes) (ls : List Bytes) :
    [46].intercalate (a :: b :: ls) = a ++ 46 :: [46].intercalate (b :: ls) := by
  simp [List.intercalate, List.intersperse]

theorem intercalate_one (a : Bytes) : [(46 : UInt8)].intercalate [a] = a := by
  simp [List.intercalate]

theorem intercalate_splitDot (s : Bytes) : [46].intercalate (splitDot s) = s := by
  induction s with
  | nil => rfl
  | cons x xs ih =>
    by_cases h : x = 46
    · subst h
      rw [splitDot, if_pos (by decide)]
      rcases e : splitDot xs with _ | ⟨l, ls⟩
      · exact absurd e (splitDot_ne_nil xs)
      · rw [intercalate_cons2, ← e, ih]; rfl
    · obtain ⟨l, ls, e, e'⟩ := splitDot_cons x xs h
      rw [e', ← ih, e]
      cases ls with
      | nil => rw [intercalate_one, intercalate_one]
      | cons b ls => rw [intercalate_cons2, intercalate_cons2]; rfl

theorem splitDot_append (l : Bytes) (hl : ∀ b ∈ l, b ≠ 46) (s : Bytes) :
    splitDot (l ++ 46 :: s) = l :: splitDot s := by
  induction l with
  | nil => rw [List.nil_append, splitDot, if_pos (by decide)]
  | cons x xs ih =>
    obtain ⟨a, as, e, e'⟩ := splitDot_cons x (xs ++ 46 :: s) (hl x List.mem_cons_self)
    rw [List.cons_append, e']
    rw [ih (fun b hb => hl b (List.mem_cons_of_mem _ hb))] at e
    injection e with e1 e2
    rw [e1, e2]

theorem splitDot_nodot (l : Bytes) (hl : ∀ b ∈ l, b ≠ 46) : splitDot l = [l] := by
  induction l with
  | nil => rfl
  | cons x xs ih =>
    obtain ⟨a, as, e, e'⟩ := splitDot_cons x xs (hl x List.mem_cons_self)
    rw [e']
    rw [ih (fun b hb => hl b (List.mem_cons_of_mem _ hb))] at e
    injection e with e1 e2
    rw [e1, e2]

theorem splitDot_intercalate (ls : List Bytes) (h0 : ls ≠ []) (h : ∀ l ∈ ls, ∀ b ∈ l, b ≠ 46) :
    splitDot ([46].intercalate ls) = ls := by
  induction ls with
  | nil => exact absurd rfl h0
  | cons a ls ih =>
    cases ls with
    | nil => rw [intercalate_one]; exact splitDot_nodot a (h a List.mem_cons_self)
    | cons b ls =>
      rw [intercalate_cons2, splitDot_append _ (h a List.mem_cons_self),
        ih (by simp) (fun l hl => h l (List.mem_cons_of_mem _ hl))]

theorem splitDot_mem (s l : Bytes) (hl : l ∈ splitDot s) : ∀ b ∈ l, b ∈ s ∧ b ≠ 46 := by
  induction s generalizing l with
  | nil => simp [splitDot] at hl; subst hl; simp
  | cons x xs ih =>
    by_cases h : x = 46
    · subst h
      rw [splitDot, if_pos (by decide)] at hl
      rcases List.mem_cons.mp hl with rfl | hl
      · simp
      · exact fun b hb => ⟨List.mem_cons_of_mem _ (ih l hl b hb).1, (ih l hl b hb).2⟩
    · obtain ⟨a, as, e, e'⟩ := splitDot_cons x xs h
      rw [e'] at hl
      rw [e] at ih
      rcases List.mem_cons.mp hl with rfl | hl
      · intro b hb
        rcases List.mem_cons.mp hb with rfl | hb
        · exact ⟨List.mem_cons_self, h⟩
        · have := ih a List.mem_cons_self b hb
          exact ⟨List.mem_cons_of_mem _ this.1, this.2⟩
      · intro b hb
        have := ih l (List.mem_cons_of_mem _ hl) b hb
        exact ⟨List.mem_cons_of_mem _ this.1, this.2⟩

/-- every byte of the string occurs in a label, or is a dot -/
theorem mem_splitDot (s : Bytes) : ∀ b ∈ s, b = 46 ∨ ∃ l ∈ splitDot s, b ∈ l := by
  induction s with
  | nil => simp
  | cons x xs ih =>
    intro b hb
    by_cases h : x = 46
    · subst h
      rw [splitDot, if_pos (by decide)]
      rcases List.mem_cons.mp hb with rfl | hb
      · exact .inl rfl
      · rcases ih b hb with h | ⟨l, hl, h⟩
        · exact .inl h
        · exact .inr ⟨l, List.mem_cons_of_mem _ hl, h⟩
    · obtain ⟨a, as, e, e'⟩ := splitDot_cons x xs h
      rw [e']; rw [e] at ih
      rcases List.mem_cons.mp hb with rfl | hb
      · exact .inr ⟨_, List.mem_cons_self, List.mem_cons_self⟩
      · rcases ih b hb with h | ⟨l, hl, h⟩
        · exact .inl h
        · rcases List.mem_cons.mp hl with rfl | hl
          · exact .inr ⟨_, List.mem_cons_self, List.mem_cons_of_mem _ h⟩
          · exact .inr ⟨l, List.mem_cons_of_mem _ hl, h⟩

/-- the per-label test of `try_from` -/
def badLabel (l : Bytes) : Bool := l.isEmpty || l.length > 63 || l.getLast? == some 45 || l.head? == some 45

theorem validHostname_iff (s : Bytes) :
    ValidHostname s ↔ 1 ≤ s.length ∧ s.length ≤ 253 ∧ (∀ b ∈ s, isValidChar b = true) ∧
      ∀ l ∈ splitDot s, badLabel l = false := by
  have bad : ∀ l, badLabel l = false ↔ 1 ≤ l.length ∧ l.length ≤ 63 ∧ l.head? ≠ some 45 ∧ l.getLast? ≠ some 45 := by
    intro l
    unfold badLabel
    simp only [Bool.or_eq_false_iff, decide_eq_false_iff_not, beq_eq_false_iff_ne, List.isEmpty_eq_false_iff,
      ← List.length_pos_iff]
    constructor
    · rintro ⟨⟨⟨h1, h2⟩, h3⟩, h4⟩; exact ⟨h1, by omega, h4, h3⟩
    · rintro ⟨h1, h2, h3, h4⟩; exact ⟨⟨⟨h1, by omega⟩, h4⟩, h3⟩
  unfold ValidHostname
  refine and_congr_right fun _ => and_congr_right fun _ => ?_
  constructor
  · rintro ⟨ls, h0, rfl, h⟩
    have nodot : ∀ l ∈ ls, ∀ b ∈ l, b ≠ 46 := by
      rintro l hl b hb rfl
      rcases (h l hl).2.2.1 _ hb with h | h
      · revert h; unfold isAlnum; decide
      · exact absurd h (by decide)
    have e := splitDot_intercalate ls h0 nodot
    rw [e]
    refine ⟨fun b hb => ?_, fun l hl => ?_⟩
    · rw [isValidChar_iff]
      rcases mem_splitDot _ b hb with hb | ⟨l, hl, hb⟩
      · exact .inr (.inr hb)
      · rw [e] at hl
        rcases (h l hl).2.2.1 _ hb with h | h
        · exact .inl h
        · exact .inr (.inl h)
    · obtain ⟨h1, h2, _, h4, h5⟩ := h l hl
      exact (bad l).mpr ⟨h1, h2, h4, h5⟩
  · rintro ⟨hc, hb⟩
    refine ⟨splitDot s, splitDot_ne_nil s, (intercalate_splitDot s).symm, fun l hl => ?_⟩
    obtain ⟨h1, h2, h3, h4⟩ := (bad l).mp (hb l hl)
    refine ⟨h1, h2, fun b hb => ?_, h3, h4⟩
    obtain ⟨m, hd⟩ := splitDot_mem s l hl b hb
    rcases (isValidChar_iff b).mp (hc b m) with h | h | h
    · exact .inl h
    · exact .inr h
    · exact absurd h hd

open Classical in
theorem hostnameTryFrom_iff (s : Bytes) : hostnameTryFrom s = if ValidHostname s then some s else none := by
  unfold hostnameTryFrom
  have : (s.isEmpty || decide (s.length > 253) || s.any (fun b => !isValidChar b) ||
      (splitDot s).any badLabel) = true ↔ ¬ ValidHostname s := by
    rw [validHostname_iff]
    constructor
    · intro h ⟨h1, h2, h3, h4⟩
      simp only [Bool.or_eq_true, List.any_eq_true, decide_eq_true_eq] at h
      rcases h with ((h | h) | ⟨b, hb, h⟩) | ⟨l, hl, h⟩
      · rw [List.isEmpty_iff.mp h] at h1; simp at h1
      · omega
      · rw [h3 b hb] at h; simp at h
      · rw [h4 l hl] at h; simp at h
    · intro h
      apply Classical.byContradiction
      intro hn
      apply h
      simp only [Bool.or_eq_true, not_or, Bool.not_eq_true, List.any_eq_false, decide_eq_true_eq] at hn
      obtain ⟨⟨⟨h1, h2⟩, h3⟩, h4⟩ := hn
      refine ⟨List.length_pos_iff.mpr (List.isEmpty_eq_false_iff.mp h1), by omega, fun b hb => by simpa using h3 b hb,
        fun l hl => h4 l hl⟩
  show (if (s.isEmpty || decide (s.length > 253) || s.any (fun b => !isValidChar b) ||
      (splitDot s).any badLabel) = true then none else some s) = _
  by_cases h : ValidHostname s
  · rw [if_neg (by rw [this]; exact fun hn => hn h), if_pos h]
  · rw [if_pos (this.mpr h), if_neg h]

theorem isValidSegment_eq (pre seg post : Bytes) :
    isValidSegment (pre ++ seg ++ post) pre.length (pre.length + seg.length) = !badLabel seg := by
  unfold isValidSegment badLabel
  rw [Nat.add_sub_cancel_left]
  cases seg with
  | nil => simp
  | cons x xs =>
    have e1 : (pre ++ (x :: xs) ++ post)[pre.length]? = some x := by simp
    have e2 : (pre ++ (x :: xs) ++ post)[pre.length + (x :: xs).length - 1]? = (x :: xs).getLast? := by
      rw [List.getLast?_eq_getElem?, List.append_assoc, List.getElem?_append_right (by simp),
        List.getElem?_append_left (by simp)]
      congr 1; simp
    rw [e1, e2]
    simp only [List.head?_cons, List.isEmpty_cons, Bool.false_or]
    have : ((x :: xs).length == 0) = false := by simp
    rw [this, Bool.false_or]
    by_cases h1 : (x :: xs).length > 63
    · rw [if_pos (by simpa using h1), decide_eq_true h1]; rfl
    · rw [if_neg (by simpa using h1), decide_eq_false h1]
      cases hx : (some x == some (45 : UInt8)) <;> cases hl : ((x :: xs).getLast? == some (45 : UInt8)) <;> simp

theorem newLoop_eq (todo : Bytes) : ∀ (pre seg : Bytes), (∀ b ∈ seg, b ≠ 46) →
    newLoop (pre ++ seg ++ todo) (pre.length + seg.length) pre.length todo
      = (todo.all isValidChar && (splitDot (seg ++ todo)).all (fun l => !badLabel l)) := by
  induction todo with
  | nil =>
    intro pre seg hseg
    rw [newLoop, isValidSegment_eq, List.append_nil, splitDot_nodot _ hseg]; simp
  | cons x xs ih =>
    intro pre seg hseg
    rw [newLoop]
    cases hv : isValidChar x with
    | false => simp [hv]
    | true =>
      rw [if_neg (by simp)]
      by_cases hd : x = 46
      · subst hd
        rw [if_pos (by decide), isValidSegment_eq, splitDot_append _ hseg]
        cases hb : badLabel seg with
        | true => simp [hb]
        | false =>
          rw [if_neg (by simp)]
          have := ih (pre ++ seg ++ [46]) [] (by simp)
          simp only [List.length_append, List.length_cons, List.length_nil, Nat.add_zero, List.append_assoc,
            List.cons_append, List.nil_append, List.append_nil] at this ⊢
          rw [Nat.zero_add, ← Nat.add_assoc] at this
          rw [this]; simp [hv, hb]
      · rw [if_neg (by simpa using hd)]
        have := ih pre (seg ++ [x]) (by
          intro b hb
          rcases List.mem_append.mp hb with h | h
          · exact hseg b h
          · rw [List.mem_singleton.mp h]; exact hd)
        simp only [List.length_append, List.length_cons, List.length_nil, List.append_assoc,
            List.cons_append, List.nil_append, Nat.zero_add] at this ⊢
        rw [← Nat.add_assoc] at this
        rw [this]; simp [hv]

open Classical in
theorem hostnameNew_iff (s : Bytes) : hostnameNew s = if ValidHostname s then some s else none := by
  unfold hostnameNew
  have h := newLoop_eq s [] [] (by simp)
  simp only [List.nil_append, List.length_nil, Nat.add_zero] at h
  rw [h]
  have := validHostname_iff s
  by_cases hs : s.isEmpty || decide (s.length > 253)
  · rw [if_pos hs, if_neg]
    rw [this]; rintro ⟨h1, h2, _⟩
    simp only [Bool.or_eq_true, decide_eq_true_eq] at hs
    rcases hs with hs | hs
    · rw [List.isEmpty_iff.mp hs] at h1; simp at h1
    · omega
  · rw [if_neg hs]
    simp only [Bool.or_eq_true, decide_eq_true_eq, not_or, Bool.not_eq_true] at hs
    have h1 := List.length_pos_iff.mpr (List.isEmpty_eq_false_iff.mp hs.1)
    congr 1
    rw [this]
    simp only [Bool.and_eq_true, List.all_eq_true, Bool.not_eq_true', eq_iff_iff]
    exact ⟨fun ⟨a, b⟩ => ⟨h1, by omega, a, b⟩, fun ⟨_, _, a, b⟩ => ⟨a, b⟩⟩

end Verif
