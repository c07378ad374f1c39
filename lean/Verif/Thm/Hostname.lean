import Verif.Proof.Hostname
/-!
# C20, C21: host name validation
-/
namespace Verif.Thm
open Verif Hl Spec

/-- C20: `Hostname::new` accepts exactly the valid host names, and keeps the string it was given. -/
theorem C20_new_accepts_exactly (s : Bytes) :
    (ValidHostname s → hostnameNew s = some s) ∧ (¬ ValidHostname s → hostnameNew s = none) := by
  rw [hostnameNew_iff]
  exact ⟨fun h => if_pos h, fun h => if_neg h⟩

/-- C20: the same for `Hostname::try_from`. -/
theorem C20_try_from_accepts_exactly (s : Bytes) :
    (ValidHostname s → hostnameTryFrom s = some s) ∧ (¬ ValidHostname s → hostnameTryFrom s = none) := by
  rw [hostnameTryFrom_iff]
  exact ⟨fun h => if_pos h, fun h => if_neg h⟩

/-- C20: the length (as the `u8` that `Hostname::len` returns) and the labels of an accepted name: the
labels are the valid labels the name is made of. -/
theorem C20_len_and_labels (s h : Bytes) (hn : hostnameNew s = some h) :
    (hostnameLen h).toNat = s.length ∧ [46].intercalate (hostnameLabels h) = s ∧
      ∀ l ∈ hostnameLabels h, ValidLabel l := by
  rw [hostnameNew_iff] at hn
  split at hn
  · rename_i hv
    injection hn with hn
    subst hn
    have h2 := hv.2.1
    refine ⟨?_, intercalate_splitDot s, fun l hl => ?_⟩
    · unfold hostnameLen; rw [UInt8.toNat_ofNat']; omega
    · obtain ⟨_, _, ls, h0, e, hl'⟩ := hv
      have nodot : ∀ l ∈ ls, ∀ b ∈ l, b ≠ 46 := by
        rintro l hl b hb rfl
        rcases (hl' l hl).2.2.1 _ hb with h | h
        · revert h; unfold isAlnum; decide
        · exact absurd h (by decide)
      unfold hostnameLabels at hl
      rw [e, splitDot_intercalate ls h0 nodot] at hl
      exact hl' l hl
  · exact absurd hn (by simp)

/-- C21: both constructors agree on every string. -/
theorem C21_constructors_agree (s : Bytes) : hostnameNew s = hostnameTryFrom s := by
  rw [hostnameNew_iff, hostnameTryFrom_iff]

/-- `a-b.c9` is a valid name and is accepted; `-a`, `a..b` and `a_b` are rejected. -/
example : ValidHostname [97, 45, 98, 46, 99, 57] :=
  ⟨by decide, by decide, [[97, 45, 98], [99, 57]], by decide, by decide, by
    unfold ValidLabel isAlnum; decide⟩
example : hostnameNew [97, 45, 98, 46, 99, 57] = some [97, 45, 98, 46, 99, 57] := by decide
example : hostnameNew [45, 97] = none ∧ hostnameNew [97, 46, 46, 98] = none ∧ hostnameNew [97, 95, 98] = none := by
  decide

end Verif.Thm
