import Verif.Proof.TlsParse
import Verif.Thm.TlsCodes
/-!
# C58: server hello and encrypted extensions
-/
namespace Verif.Tls
open Verif Hl
open _root_.Verif.Spec.Tls (HelloExtension)

/-- An extension that the loop accepts after what it has seen. -/
def Fits (seen : Seen) : HelloExtension → Prop
  | .keyShare key => seen.keyShare = false ∧ key.length = 65
  | .tls13 => seen.versions = false
  | .firstIdentity => True

/-- What the loop has seen afterwards. -/
def Seen.add (seen : Seen) : HelloExtension → Seen
  | .keyShare key => { seen with keyShare := true, key := key }
  | .tls13 => { seen with versions := true }
  | .firstIdentity => { seen with psk := true }

theorem adv_adv (r : CircleReader) (m n : Nat) : (r.adv m).adv n = r.adv (m + n) := by
  simp only [CircleReader.adv]
  congr 1
  rw [UInt16.add_assoc, ← UInt16.ofNat_add]

theorem recvKeyShare_iff {r : CircleReader} {d : Bytes} {p : Nat} (h : CRel r d p) {seen : Seen} {x : CircleReader × Seen} :
    recvKeyShare r seen = .ok x ↔ ∃ key, Fits seen (.keyShare key) ∧ toBe16 0x17 ++ toBe16 65 ++ key <+: d.drop p ∧
      x = (r.adv 69, seen.add (.keyShare key)) := by
  have hg : ∀ g, NamedGroup.tryFrom g = .ok .secp256r1 ↔ g = 0x17 := by
    intro g
    constructor
    · intro hg
      unfold NamedGroup.tryFrom findCode16 at hg
      split at hg
      · rename_i a ha
        injection hg with hg; subst hg
        have := List.find?_some ha
        exact of_decide_eq_true this
      · exact absurd hg (by simp)
    · rintro rfl; decide
  unfold recvKeyShare
  simp only [ite_fail_iff, ok_bind_iff, h.u16_iff]
  constructor
  · rintro ⟨h0, ⟨g, _⟩, ⟨h1, rfl⟩, h2, ⟨l, _⟩, h3, h4, ⟨key, _⟩, h5, h6⟩
    have r2 : CRel (r.adv 2) d (p + 2) := h.adv h1
    simp only at h2 h3 h4 h5
    rw [r2.u16_iff] at h3
    obtain ⟨h3, rfl⟩ := h3
    have r4 : CRel ((r.adv 2).adv 2) d (p + 2 + 2) := r2.adv h3
    simp only at h3 h5
    rw [r4.readExact_iff] at h5
    obtain ⟨h5, h7, rfl⟩ := h5
    simp only at h5 h7 h6
    rw [Decidable.not_not, hg] at h2
    rw [Decidable.not_not] at h4
    subst h2
    have : l = 65 := UInt16.toNat_inj.1 h4
    subst this
    refine ⟨key, ⟨by simpa using h0, h5⟩, ?_, ?_⟩
    · rw [prefix_append_iff, prefix_append_iff]; exact ⟨⟨h1, h3⟩, by simpa [toBe16_length] using h7⟩
    · injection h6 with h6; rw [← h6, adv_adv, adv_adv]; rfl
  · rintro ⟨key, ⟨h0, h1⟩, h2, rfl⟩
    rw [prefix_append_iff, prefix_append_iff] at h2
    obtain ⟨⟨h2, h3⟩, h4⟩ := h2
    have r2 : CRel (r.adv 2) d (p + 2) := h.adv h2
    have r4 : CRel ((r.adv 2).adv 2) d (p + 2 + 2) := r2.adv h3
    refine ⟨by simp [h0], (0x17, _), ⟨h2, rfl⟩,
      show ¬ NamedGroup.tryFrom 0x17 ≠ .ok .secp256r1 from by decide, (65, _), r2.u16_iff.2 ⟨h3, rfl⟩,
      show ¬ (65 : UInt16).toNat ≠ 65 from by decide, (key, _),
      r4.readExact_iff.2 ⟨h1, by simpa [toBe16_length] using h4, rfl⟩, ?_⟩
    rw [show r.adv 69 = ((r.adv 2).adv 2).adv 65 from by simp only [adv_adv]]; rfl

theorem recvSupportedVersions_iff {r : CircleReader} {d : Bytes} {p : Nat} (h : CRel r d p) {seen : Seen}
    {x : CircleReader × Seen} :
    recvSupportedVersions r seen = .ok x ↔ Fits seen .tls13 ∧ toBe16 0x0304 <+: d.drop p ∧ x = (r.adv 2, seen.add .tls13) := by
  unfold recvSupportedVersions
  simp only [ite_fail_iff, ok_bind_iff, h.u16_iff]
  constructor
  · rintro ⟨h0, ⟨v, _⟩, ⟨h1, rfl⟩, h2, h3⟩
    simp only [Decidable.not_not] at h2
    subst h2
    injection h3 with h3
    exact ⟨show seen.versions = false by simpa using h0, h1, h3.symm⟩
  · rintro ⟨h0, h1, rfl⟩
    have h0 : seen.versions = false := h0
    exact ⟨by simp [h0], (0x0304, _), ⟨h1, rfl⟩, show ¬ (0x0304 : UInt16) ≠ 0x0304 from by decide, rfl⟩

theorem recvPreSharedKey_iff {r : CircleReader} {d : Bytes} {p : Nat} (h : CRel r d p) {seen : Seen} {len : UInt16}
    {x : CircleReader × Seen} :
    recvPreSharedKey len r seen = .ok x ↔ len = 2 ∧ toBe16 0 <+: d.drop p ∧ x = (r.adv 2, seen.add .firstIdentity) := by
  unfold recvPreSharedKey
  simp only [ite_fail_iff, ok_bind_iff, h.u16_iff]
  constructor
  · rintro ⟨h0, ⟨v, _⟩, ⟨h1, rfl⟩, h2, h3⟩
    simp only [Decidable.not_not] at h0 h2
    subst h2
    injection h3 with h3
    exact ⟨h0, h1, h3.symm⟩
  · rintro ⟨h0, h1, rfl⟩
    exact ⟨by simpa using h0, (0, _), ⟨h1, rfl⟩, show ¬ (0 : UInt16) ≠ 0 from by decide, rfl⟩

theorem extensionType_iff (c : UInt16) (t : ExtensionType) : ExtensionType.tryFrom c = .ok t ↔ c = t.code := by
  constructor
  · intro hg
    unfold ExtensionType.tryFrom findCode16 at hg
    split at hg
    · rename_i a ha
      injection hg with hg; subst hg
      have := List.find?_some ha
      exact of_decide_eq_true this
    · exact absurd hg (by simp)
  · rintro rfl; cases t <;> decide

theorem keyShare_bytes {key : Bytes} (h : key.length = 65) :
    (HelloExtension.keyShare key).bytes = toBe16 51 ++ toBe16 69 ++ (toBe16 0x17 ++ toBe16 65 ++ key) := by
  have e : (Spec.Tls.u16 0x17 ++ Spec.Tls.u16 key.length ++ key).length = 69 := by simp [u16_length, h]
  rw [HelloExtension.bytes, Spec.Tls.extension, e, h]; rfl

theorem keyShare_length {key : Bytes} (h : key.length = 65) : (HelloExtension.keyShare key).bytes.length = 73 := by
  rw [keyShare_bytes h]; simp [h]

theorem recvServerExtension_iff {r : CircleReader} {d : Bytes} {p : Nat} (h : CRel r d p) {seen : Seen}
    {x : CircleReader × Seen} :
    recvServerExtension r seen = .ok x ↔ ∃ e : HelloExtension, Fits seen e ∧ e.bytes <+: d.drop p ∧
      x = (r.adv e.bytes.length, seen.add e) := by
  unfold recvServerExtension
  simp only [ok_bind_iff, h.u16_iff]
  constructor
  · rintro ⟨⟨t, _⟩, ⟨h1, rfl⟩, h2⟩
    simp only at h1 h2
    have r2 : CRel (r.adv 2) d (p + 2) := h.adv h1
    split at h2
    · exact absurd h2 (by simp [fail])
    · rename_i ty ht
      rw [extensionType_iff] at ht
      subst ht
      simp only [ok_bind_iff, r2.u16_iff, ite_fail_iff] at h2
      obtain ⟨⟨len, _⟩, ⟨h2, rfl⟩, y, h3, h4, h5⟩ := h2
      injection h5 with h5; subst h5
      simp only [Decidable.not_not] at h2 h3 h4
      have r4 : CRel ((r.adv 2).adv 2) d (p + 2 + 2) := r2.adv h2
      split at h3
      · rw [recvKeyShare_iff r4] at h3
        obtain ⟨key, f, h3, rfl⟩ := h3
        have hl : len = 69 := by
          apply UInt16.toNat_inj.1
          rw [h4]; exact adv_sub (by omega)
        subst hl
        refine ⟨.keyShare key, f, ?_, ?_⟩
        · rw [keyShare_bytes f.2, prefix_append_iff, prefix_append_iff]
          exact ⟨⟨h1, h2⟩, h3⟩
        · rw [keyShare_length f.2, adv_adv, adv_adv]
      · rw [recvSupportedVersions_iff r4] at h3
        obtain ⟨f, h3, rfl⟩ := h3
        have hl : len = 2 := by
          apply UInt16.toNat_inj.1
          rw [h4]; exact adv_sub (by omega)
        subst hl
        refine ⟨.tls13, f, ?_, ?_⟩
        · rw [show HelloExtension.tls13.bytes = toBe16 43 ++ toBe16 2 ++ toBe16 0x0304 from rfl, prefix_append_iff, prefix_append_iff]
          exact ⟨⟨h1, h2⟩, h3⟩
        · rw [adv_adv, adv_adv]; rfl
      · rw [recvPreSharedKey_iff r4] at h3
        obtain ⟨rfl, h3, rfl⟩ := h3
        refine ⟨.firstIdentity, trivial, ?_, ?_⟩
        · rw [show HelloExtension.firstIdentity.bytes = toBe16 41 ++ toBe16 2 ++ toBe16 0 from rfl, prefix_append_iff, prefix_append_iff]
          exact ⟨⟨h1, h2⟩, h3⟩
        · rw [adv_adv, adv_adv]; rfl
      · exact absurd h3 (by simp [fail])
  · rintro ⟨e, f, h1, rfl⟩
    cases e with
    | keyShare key =>
      rw [keyShare_bytes f.2, prefix_append_iff, prefix_append_iff] at h1
      obtain ⟨⟨h1, h2⟩, h3⟩ := h1
      have r2 : CRel (r.adv 2) d (p + 2) := h.adv h1
      have r4 : CRel ((r.adv 2).adv 2) d (p + 2 + 2) := r2.adv h2
      refine ⟨(51, r.adv 2), ⟨h1, rfl⟩, ?_⟩
      simp only [(extensionType_iff 51 .keyShare).2 rfl, ok_bind_iff, ite_fail_iff]
      refine ⟨(69, (r.adv 2).adv 2), r2.u16_iff.2 ⟨h2, rfl⟩, _, (recvKeyShare_iff r4).2 ⟨key, f, h3, rfl⟩, ?_, ?_⟩
      · rw [Decidable.not_not]
        apply UInt16.toNat_inj.1
        exact (adv_sub (n := 69) (by omega)).symm
      · rw [keyShare_length f.2, adv_adv, adv_adv]
    | tls13 =>
      rw [show HelloExtension.tls13.bytes = toBe16 43 ++ toBe16 2 ++ toBe16 0x0304 from rfl, prefix_append_iff, prefix_append_iff] at h1
      obtain ⟨⟨h1, h2⟩, h3⟩ := h1
      have r2 : CRel (r.adv 2) d (p + 2) := h.adv h1
      have r4 : CRel ((r.adv 2).adv 2) d (p + 2 + 2) := r2.adv h2
      refine ⟨(43, r.adv 2), ⟨h1, rfl⟩, ?_⟩
      simp only [(extensionType_iff 43 .supportedVersions).2 rfl, ok_bind_iff, ite_fail_iff]
      refine ⟨(2, (r.adv 2).adv 2), r2.u16_iff.2 ⟨h2, rfl⟩, _, (recvSupportedVersions_iff r4).2 ⟨f, h3, rfl⟩, ?_, ?_⟩
      · rw [Decidable.not_not]
        apply UInt16.toNat_inj.1
        exact (adv_sub (n := 2) (by omega)).symm
      · rw [adv_adv, adv_adv]; rfl
    | firstIdentity =>
      rw [show HelloExtension.firstIdentity.bytes = toBe16 41 ++ toBe16 2 ++ toBe16 0 from rfl, prefix_append_iff, prefix_append_iff] at h1
      obtain ⟨⟨h1, h2⟩, h3⟩ := h1
      have r2 : CRel (r.adv 2) d (p + 2) := h.adv h1
      have r4 : CRel ((r.adv 2).adv 2) d (p + 2 + 2) := r2.adv h2
      refine ⟨(41, r.adv 2), ⟨h1, rfl⟩, ?_⟩
      simp only [(extensionType_iff 41 .preSharedKey).2 rfl, ok_bind_iff, ite_fail_iff]
      refine ⟨(2, (r.adv 2).adv 2), r2.u16_iff.2 ⟨h2, rfl⟩, _, (recvPreSharedKey_iff r4).2 ⟨rfl, h3, rfl⟩, ?_, ?_⟩
      · rw [Decidable.not_not]
        apply UInt16.toNat_inj.1
        exact (adv_sub (n := 2) (by omega)).symm
      · rw [adv_adv, adv_adv]; rfl

/-- The loop accepts the extensions of `l` in turn. -/
def FitsAll (seen : Seen) : List HelloExtension → Prop
  | [] => True
  | e :: l => Fits seen e ∧ FitsAll (seen.add e) l

theorem four_le_bytes (e : HelloExtension) : 4 ≤ e.bytes.length := by
  cases e <;> simp [HelloExtension.bytes, Spec.Tls.extension, u16_length] <;> omega

open _root_.Verif.Spec.Tls.HelloExtension (listBytes)

/-- Positions that end inside or right after the last of some extensions. -/
theorem covers_cons (E p : Nat) (e : HelloExtension) (l : List HelloExtension) :
    (p < E ∧ E ≤ p + e.bytes.length + (listBytes l).length ∧ (l = [] ∨ p + e.bytes.length + (listBytes l.dropLast).length < E)) ↔
    (E ≤ p + (listBytes (e :: l)).length ∧ p + (listBytes (e :: l).dropLast).length < E) := by
  have hc : ∀ l, (listBytes (e :: l)).length = e.bytes.length + (listBytes l).length := by
    intro l; simp [listBytes]
  have := four_le_bytes e
  cases l with
  | nil => simp only [hc, List.dropLast_singleton]; simp [listBytes]; omega
  | cons f l =>
    rw [hc, List.dropLast_cons_of_ne_nil (x := e) (l := f :: l) (by simp), hc]
    constructor
    · rintro ⟨h1, h2, h3 | h3⟩
      · exact absurd h3 (by simp)
      · omega
    · rintro ⟨h1, h2⟩
      exact ⟨by omega, by omega, .inr (by omega)⟩

theorem recvServerExtensions_iff {d : Bytes} {E : UInt16} : ∀ (fuel : Nat) {r : CircleReader} {p : Nat} (_ : CRel r d p)
    (_ : d.length < p + fuel) {seen s : Seen},
    recvServerExtensions fuel E r seen = .ok s ↔ ∃ l, FitsAll seen l ∧ listBytes l <+: d.drop p ∧ s = l.foldl Seen.add seen ∧
      E.toNat ≤ p + (listBytes l).length ∧ (l = [] ∨ p + (listBytes l.dropLast).length < E.toNat)
  | 0, r, p, h, hf, seen, s => by have := h.pos; omega
  | fuel + 1, r, p, h, hf, seen, s => by
    have hp := h.ptr
    unfold recvServerExtensions
    by_cases c : E > r.ptr
    · rw [if_pos c]
      have c : r.ptr < E := c
      rw [UInt16.lt_iff_toNat_lt, hp] at c
      simp only [ok_bind_iff, recvServerExtension_iff h]
      constructor
      · rintro ⟨x, ⟨e, f, h1, rfl⟩, h2⟩
        have r2 := h.adv h1
        rw [recvServerExtensions_iff fuel r2 (by have := four_le_bytes e; omega)] at h2
        obtain ⟨l, g, h3, h4, h5⟩ := h2
        refine ⟨e :: l, ⟨f, g⟩, ?_, h4, ?_⟩
        · rw [show listBytes (e :: l) = e.bytes ++ listBytes l from rfl, prefix_append_iff]; exact ⟨h1, h3⟩
        · have := (covers_cons _ _ _ _).1 ⟨c, h5⟩
          exact ⟨this.1, .inr this.2⟩
      · rintro ⟨l, g, h1, rfl, h3, h4⟩
        cases l with
        | nil => simp [listBytes] at h3; omega
        | cons e l =>
          rw [show listBytes (e :: l) = e.bytes ++ listBytes l from rfl, prefix_append_iff] at h1
          have r2 := h.adv h1.1
          refine ⟨_, ⟨e, g.1, h1.1, rfl⟩, ?_⟩
          rw [recvServerExtensions_iff fuel r2 (by have := four_le_bytes e; omega)]
          have := (covers_cons _ _ _ _).2 ⟨h3, h4.resolve_left (by simp)⟩
          exact ⟨l, g.2, h1.2, rfl, this.2⟩
    · rw [if_neg c]
      have c : ¬ r.ptr < E := c
      rw [UInt16.lt_iff_toNat_lt, hp] at c
      constructor
      · intro hs; injection hs with hs; subst hs
        exact ⟨[], trivial, List.nil_prefix, rfl, by simp [listBytes]; omega, .inl rfl⟩
      · rintro ⟨l, g, h1, rfl, h3, h4⟩
        rcases h4 with rfl | h4
        · rfl
        · omega

theorem foldl_selects : ∀ (l : List HelloExtension) (seen : Seen) (key : Bytes),
    (FitsAll seen l ∧ (l.foldl Seen.add seen).keyShare = true ∧ (l.foldl Seen.add seen).versions = true ∧
      (l.foldl Seen.add seen).psk = true ∧ (l.foldl Seen.add seen).key = key) ↔
    ((if seen.keyShare = true then l.filter (fun e => e matches .keyShare _) = [] ∧ seen.key = key
      else l.filter (fun e => e matches .keyShare _) = [.keyShare key] ∧ key.length = 65) ∧
    l.count .tls13 = (if seen.versions = true then 0 else 1) ∧ (seen.psk = true ∨ .firstIdentity ∈ l))
  | [], seen, key => by
    cases h : seen.keyShare <;> cases h' : seen.versions <;> simp [FitsAll, h, h', and_comm]
  | e :: l, seen, key => by
    have ih := foldl_selects l (seen.add e) key
    rw [FitsAll, List.foldl_cons, and_assoc, ih]
    cases e with
    | keyShare k =>
      cases h : seen.keyShare with
      | true => simp [Fits, Seen.add, h]
      | false =>
        simp only [Fits, Seen.add, h, if_true, List.filter_cons, List.count_cons]
        simp
        constructor
        · rintro ⟨h1, ⟨h2, rfl⟩, h3⟩; exact ⟨⟨⟨rfl, h2⟩, h1⟩, h3⟩
        · rintro ⟨⟨⟨rfl, h2⟩, h1⟩, h3⟩; exact ⟨h1, ⟨h2, rfl⟩, h3⟩
    | tls13 =>
      cases h : seen.versions <;> simp [Fits, Seen.add, h]
    | firstIdentity =>
      simp [Fits, Seen.add]
      exact fun _ => Iff.rfl

theorem checkSeen_iff {κ : Type} {pk : Bytes → Option κ} {s : Seen} {k : κ} :
    checkSeen pk s = .ok k ↔ s.keyShare = true ∧ s.versions = true ∧ s.psk = true ∧ pk s.key = some k := by
  unfold checkSeen
  simp only [ite_fail_iff]
  cases pk s.key <;> simp [fail]

theorem extensionsEnd_iff {pos len e : UInt16} : extensionsEnd pos len = .ok e ↔ pos.toNat + len.toNat < 65536 ∧ e = pos + len := by
  unfold extensionsEnd
  split
  · rename_i h; simp [h, eq_comm]
  · rename_i h; simp [h, fail]

theorem cipherSuite_iff (v : UInt8 × UInt8) (t : CipherSuite) : CipherSuite.tryFrom v = .ok t ↔ v = t.value := by
  constructor
  · intro hg
    unfold CipherSuite.tryFrom at hg
    split at hg
    · rename_i a ha
      injection hg with hg; subst hg
      have := List.find?_some ha
      exact of_decide_eq_true this
    · exact absurd hg (by simp)
  · rintro rfl; cases t <;> decide

theorem prefix_drop_eq {x d : Bytes} {p : Nat} (h : x <+: d.drop p) : d.drop p = x ++ d.drop (p + x.length) := by
  obtain ⟨t, ht⟩ := h
  rw [← List.drop_drop, ← ht]; simp

/-- **C58.** A server hello that is the body of a handshake message of at most 32767 bytes, in any two parts, is accepted, giving
the public key `k`, exactly if it has version 0x0303, an empty session id, the suite `TLS_AES_128_GCM_SHA256` and no compression,
and its extensions are, in any order, one key share of 65 bytes on secp256r1 that decodes to `k`, one selection of TLS 1.3, and
selections of the first pre-shared key.  The length of the extensions only has to end within the last one. -/
theorem C58_server_hello_accepted_iff {κ : Type} (pk : Bytes → Option κ) (k : κ) (a b : Bytes)
    (small : (a ++ b).length ≤ 32767) (fuel : Nat) (hf : (a ++ b).length < fuel) :
    recvServerHello fuel pk (CircleReader.new a b) = .ok k ↔
      ∃ random len extensions rest key, random.length = 32 ∧
        a ++ b = Spec.Tls.helloBytes random len (listBytes extensions ++ rest) ∧
        (listBytes extensions.dropLast).length < len ∧ len ≤ (listBytes extensions).length ∧
        Spec.Tls.Selects extensions key ∧ pk key = some k := by
  have h : CRel (CircleReader.new a b) (a ++ b) 0 := ⟨rfl, rfl, Nat.zero_le _, small⟩
  unfold recvServerHello
  simp only [ok_bind_iff, ite_fail_iff, h.u16_iff]
  constructor
  · rintro ⟨⟨v, _⟩, ⟨h1, rfl⟩, h2, r1, h3, ⟨i, _⟩, h4, h5, ⟨su, _⟩, h6, h7⟩
    simp only [Decidable.not_not] at h1 h2 h3 h4 h5 h6 h7
    subst h2
    have r2 : CRel ((CircleReader.new a b).adv 2) (a ++ b) 2 := h.adv h1
    rw [r2.skip_iff] at h3
    obtain ⟨h3, rfl⟩ := h3
    have r34 : CRel (((CircleReader.new a b).adv 2).adv 32) (a ++ b) 34 := r2.add 32 h3
    rw [show UInt16.toNat 32 = 32 from rfl, r34.u8_iff] at h4
    obtain ⟨h4, rfl⟩ := h4
    have r35 : CRel ((((CircleReader.new a b).adv 2).adv 32).adv 1) (a ++ b) 35 := r34.adv h4
    simp only at h4 h5 h6
    subst h5
    rw [r35.readExact_iff] at h6
    obtain ⟨h6, h8, rfl⟩ := h6
    simp only at h6 h8
    match su, h6 with
    | [s1, s2], _ =>
    have r37 : CRel (((((CircleReader.new a b).adv 2).adv 32).adv 1).adv 2) (a ++ b) 37 := r35.adv h8
    simp only [List.getD_cons_zero, List.getD_cons_succ] at h7
    split at h7
    · exact absurd h7 (by simp [fail])
    · rename_i cs hcs
      rw [cipherSuite_iff] at hcs
      simp only [ok_bind_iff, ite_fail_iff, r37.u8_iff] at h7
      obtain ⟨h9, ⟨c, _⟩, ⟨h10, rfl⟩, h11, ⟨len, _⟩, h12, e, h13, s, h14, h15⟩ := h7
      simp only [Decidable.not_not] at h9 h10 h11 h12 h13 h14 h15
      subst h9 h11
      have r38 : CRel ((((((CircleReader.new a b).adv 2).adv 32).adv 1).adv 2).adv 1) (a ++ b) 38 := r37.adv h10
      rw [r38.u16_iff] at h12
      obtain ⟨h12, rfl⟩ := h12
      simp only at h12 h13 h14
      have r40 : CRel (((((((CircleReader.new a b).adv 2).adv 32).adv 1).adv 2).adv 1).adv 2) (a ++ b) 40 := r38.adv h12
      rw [extensionsEnd_iff, r40.ptr] at h13
      obtain ⟨h13, rfl⟩ := h13
      rw [recvServerExtensions_iff fuel r40 (by omega)] at h14
      obtain ⟨l, f, h14, rfl, h16, h17⟩ := h14
      rw [checkSeen_iff] at h15
      obtain ⟨g1, g2, g3, g4⟩ := h15
      have sel := (foldl_selects l {} _).1 ⟨f, g1, g2, g3, rfl⟩
      simp only [Bool.false_eq_true, if_false, false_or] at sel
      rw [UInt16.toNat_add, r40.ptr, Nat.mod_eq_of_lt h13] at h16 h17
      have hne : l ≠ [] := by rintro rfl; simp at sel
      refine ⟨((a ++ b).drop 2).take 32, len.toNat, l, (a ++ b).drop (40 + (listBytes l).length), _, ?_, ?_, ?_, ?_,
        ⟨sel.1.2, sel.1.1, sel.2.1, sel.2.2⟩, g4⟩
      · simp; simp at h3; omega
      · have e1 := prefix_drop_eq h1
        have e2 : (a ++ b).drop 2 = ((a ++ b).drop 2).take 32 ++ (a ++ b).drop 34 := by
          rw [← List.drop_drop (i := 32) (j := 2), List.take_append_drop]
        have e3 := prefix_drop_eq h4
        have e4 := prefix_drop_eq h8
        have e5 := prefix_drop_eq h10
        have e6 := prefix_drop_eq h12
        have e7 := prefix_drop_eq h14
        rw [List.drop_zero] at e1
        rw [Spec.Tls.helloBytes, u16_bytes]
        injection hcs with hs1 hs2
        subst hs1 hs2
        rw [← e7]
        conv => lhs; rw [e1, show 0 + (toBe16 771).length = 2 from rfl, e2, e3, show 34 + [(0 : UInt8)].length = 35 from rfl, e4,
          show ∀ x y : UInt8, 35 + [x, y].length = 37 from fun _ _ => rfl, e5, show 37 + [(0 : UInt8)].length = 38 from rfl, e6,
          show 38 + (toBe16 len).length = 40 from rfl]
        simp only [List.append_assoc]
        rfl
      · have := h17.resolve_left hne; omega
      · omega
  · rintro ⟨random, len, l, rest, key, h1, h2, h3, h4, h5, h6⟩
    have hlen : len ≤ 32767 - 40 := by
      have := congrArg List.length h2
      rw [Spec.Tls.helloBytes] at this
      simp [u16_length, h1] at this small
      omega
    obtain ⟨len, rfl⟩ : ∃ v : UInt16, v.toNat = len := ⟨UInt16.ofNat len, by rw [UInt16.toNat_ofNat']; omega⟩
    have hp : Spec.Tls.helloBytes random len.toNat (listBytes l ++ rest) <+: (a ++ b).drop 0 := by
      rw [List.drop_zero, h2]; exact List.prefix_rfl
    rw [Spec.Tls.helloBytes, ← List.append_assoc] at hp
    simp only [prefix_append_iff, List.length_append, u16_length, h1, List.length_cons, List.length_nil, u16_bytes, toBe16_length] at hp
    obtain ⟨⟨⟨⟨⟨⟨⟨p1, p2⟩, p3⟩, p4⟩, p5⟩, p6⟩, p7⟩, p8⟩ := hp
    have p1 : toBe16 0x0303 <+: (a ++ b).drop 0 := p1
    have r2 : CRel ((CircleReader.new a b).adv 2) (a ++ b) 2 := h.adv p1
    have r34 : CRel (((CircleReader.new a b).adv 2).adv 32) (a ++ b) 34 := by
      have := r2.adv p2; rwa [h1] at this
    have r35 : CRel ((((CircleReader.new a b).adv 2).adv 32).adv 1) (a ++ b) 35 := r34.adv p3
    have r37 : CRel (((((CircleReader.new a b).adv 2).adv 32).adv 1).adv 2) (a ++ b) 37 := r35.adv p4
    have r38 : CRel ((((((CircleReader.new a b).adv 2).adv 32).adv 1).adv 2).adv 1) (a ++ b) 38 := r37.adv p5
    have r40 : CRel (((((((CircleReader.new a b).adv 2).adv 32).adv 1).adv 2).adv 1).adv 2) (a ++ b) 40 := r38.adv p6
    have fits := (foldl_selects l {} key).2 ⟨by
      simp only [Bool.false_eq_true, if_false]; exact ⟨h5.share, h5.keySize⟩, h5.version, .inr h5.identity⟩
    refine ⟨(0x0303, _), ⟨p1, rfl⟩, show ¬ (0x0303 : UInt16) ≠ 0x0303 from by decide, _,
      r2.skip_iff.2 ⟨r34.pos, rfl⟩, (0, _), r34.u8_iff.2 ⟨p3, rfl⟩, show ¬ (0 : UInt8) ≠ 0 from by decide, ([0x13, 1], _),
      r35.readExact_iff.2 ⟨rfl, p4, rfl⟩, ?_⟩
    simp only [List.getD_cons_zero, List.getD_cons_succ]
    rw [show CipherSuite.tryFrom (0x13, 1) = .ok .aes128GcmSha256 from by decide]
    simp only [ok_bind_iff, ite_fail_iff]
    refine ⟨by decide, (0, _), r37.u8_iff.2 ⟨p5, rfl⟩, show ¬ (0 : UInt8) ≠ 0 from by decide, 
      (len, ((((((CircleReader.new a b).adv 2).adv 32).adv 1).adv 2).adv 1).adv 2), r38.u16_iff.2 ⟨p6, rfl⟩, _,
      extensionsEnd_iff.2 ⟨by have := r40.ptr; simp only [this]; omega, rfl⟩, _, (recvServerExtensions_iff fuel r40 (by omega)).2
        ⟨l, fits.1, p7, rfl, ?_, .inr ?_⟩, checkSeen_iff.2 ⟨fits.2.1, fits.2.2.1, fits.2.2.2.1, by rw [fits.2.2.2.2]; exact h6⟩⟩
    · have := r40.ptr; simp only [UInt16.toNat_add, this]; omega
    · have := r40.ptr; simp only [UInt16.toNat_add, this]; omega

/-! ## Termination -/

/-- The computation gives a value or an alert: it does not panic and does not go on forever. -/
def Ends {α : Type} (m : Res α) : Prop := (∃ a, m = .ok a) ∨ ∃ alert, m = .error (.err alert)

theorem Ends.bind {α β : Type} {m : Res α} {f : α → Res β} (h : Ends m) (hf : ∀ a, m = .ok a → Ends (f a)) : Ends (m >>= f) := by
  rcases h with ⟨a, rfl⟩ | ⟨e, rfl⟩
  · exact hf a rfl
  · exact .inr ⟨e, rfl⟩

theorem ends_ok {α : Type} (a : α) : Ends (.ok a) := .inl ⟨a, rfl⟩

theorem ends_fail {α : Type} (e : AlertDescription) : Ends (fail e : Res α) := .inr ⟨e, rfl⟩

theorem Ends.ite {α : Type} {c : Prop} [Decidable c] {a b : Res α} (ha : Ends a) (hb : Ends b) : Ends (if c then a else b) := by
  split
  · exact ha
  · exact hb

theorem CRel.ends_readExact {r : CircleReader} {d : Bytes} {p : Nat} (h : CRel r d p) (n : Nat) : Ends (r.readExact n) := by
  by_cases hn : n ≤ d.length - p
  · rw [h.readExact_ok hn]; exact ends_ok _
  · rw [h.readExact_none hn]; exact ends_fail _

theorem CRel.ends_u8 {r : CircleReader} {d : Bytes} {p : Nat} (h : CRel r d p) : Ends r.nextU8 :=
  (h.ends_readExact 1).bind fun _ _ => ends_ok _

theorem CRel.ends_u16 {r : CircleReader} {d : Bytes} {p : Nat} (h : CRel r d p) : Ends r.nextU16 :=
  (h.ends_readExact 2).bind fun _ _ => ends_ok _

theorem ends_skip (r : CircleReader) (n : UInt16) : Ends (r.skipN n) := by
  unfold CircleReader.skipN
  exact Ends.ite (ends_ok _) (ends_fail _)

theorem CRel.u16_ok {r : CircleReader} {d : Bytes} {p : Nat} (h : CRel r d p) {x : UInt16 × CircleReader} (hx : r.nextU16 = .ok x) :
    CRel x.2 d (p + 2) := by
  obtain ⟨h1, h2⟩ := h.u16_iff.1 hx
  rw [h2]; exact h.adv h1

theorem CRel.u8_ok {r : CircleReader} {d : Bytes} {p : Nat} (h : CRel r d p) {x : UInt8 × CircleReader} (hx : r.nextU8 = .ok x) :
    CRel x.2 d (p + 1) := by
  obtain ⟨h1, h2⟩ := h.u8_iff.1 hx
  rw [h2]; exact h.adv h1

theorem CRel.readExact_rel {r : CircleReader} {d : Bytes} {p n : Nat} (h : CRel r d p) {x : Bytes × CircleReader}
    (hx : r.readExact n = .ok x) : CRel x.2 d (p + n) := by
  obtain ⟨h1, h2, h3⟩ := h.readExact_iff.1 hx
  rw [h3, ← h1]; exact h.adv h2

theorem CRel.skip_ok {r : CircleReader} {d : Bytes} {p : Nat} (h : CRel r d p) {n : UInt16} {r' : CircleReader}
    (hx : r.skipN n = .ok r') : CRel r' d (p + n.toNat) := by
  obtain ⟨h1, h2⟩ := h.skip_iff.1 hx
  rw [h2]; exact h.add _ h1

theorem ends_serverExtension {r : CircleReader} {d : Bytes} {p : Nat} (h : CRel r d p) (seen : Seen) :
    Ends (recvServerExtension r seen) := by
  unfold recvServerExtension
  refine h.ends_u16.bind fun t ht => ?_
  have r2 := h.u16_ok ht
  split
  · exact ends_fail _
  · refine r2.ends_u16.bind fun l hl => ?_
    have r4 := r2.u16_ok hl
    refine Ends.bind ?_ fun x _ => Ends.ite (ends_fail _) (ends_ok _)
    split
    · refine Ends.ite (ends_fail _) (r4.ends_u16.bind fun g hg => Ends.ite (ends_fail _) ?_)
      have r6 := r4.u16_ok hg
      exact r6.ends_u16.bind fun k hk => Ends.ite (ends_fail _) ((r6.u16_ok hk).ends_readExact 65 |>.bind fun _ _ => ends_ok _)
    · exact Ends.ite (ends_fail _) (r4.ends_u16.bind fun g hg => Ends.ite (ends_fail _) (ends_ok _))
    · exact Ends.ite (ends_fail _) (r4.ends_u16.bind fun g hg => Ends.ite (ends_fail _) (ends_ok _))
    · exact ends_fail _

theorem ends_serverExtensions {d : Bytes} {E : UInt16} : ∀ (fuel : Nat) {r : CircleReader} {p : Nat} (_ : CRel r d p)
    (_ : d.length < p + fuel) (seen : Seen), Ends (recvServerExtensions fuel E r seen)
  | 0, r, p, h, hf, seen => by have := h.pos; omega
  | fuel + 1, r, p, h, hf, seen => by
    unfold recvServerExtensions
    refine Ends.ite ((ends_serverExtension h seen).bind fun x hx => ?_) (ends_ok _)
    obtain ⟨e, _, h1, rfl⟩ := (recvServerExtension_iff h).1 hx
    exact ends_serverExtensions fuel (h.adv h1) (by have := four_le_bytes e; omega) _

/-- **C58.** Parsing a server hello ends, for every string of at most 32767 bytes in two parts, with a key or with an alert: it does
not panic and it needs fewer turns of its loop than there are bytes. -/
theorem C58_server_hello_parse_ends {κ : Type} (pk : Bytes → Option κ) (a b : Bytes) (small : (a ++ b).length ≤ 32767) (fuel : Nat)
    (hf : (a ++ b).length < fuel) :
    (∃ k, recvServerHello fuel pk (CircleReader.new a b) = .ok k) ∨
      ∃ alert, recvServerHello fuel pk (CircleReader.new a b) = .error (.err alert) := by
  have h : CRel (CircleReader.new a b) (a ++ b) 0 := ⟨rfl, rfl, Nat.zero_le _, small⟩
  have main : Ends (recvServerHello fuel pk (CircleReader.new a b)) := by
    unfold recvServerHello
    refine h.ends_u16.bind fun v hv => Ends.ite (ends_fail _) ((ends_skip _ _).bind fun r hr => ?_)
    have r34 := (h.u16_ok hv).skip_ok hr
    refine r34.ends_u8.bind fun i hi => Ends.ite (ends_fail _) ?_
    have r35 := r34.u8_ok hi
    refine (r35.ends_readExact 2).bind fun s hs => ?_
    have r37 := r35.readExact_rel hs
    split
    · exact ends_fail _
    · refine Ends.ite (ends_fail _) (r37.ends_u8.bind fun c hc => Ends.ite (ends_fail _) ?_)
      have r38 := r37.u8_ok hc
      refine r38.ends_u16.bind fun l hl => ?_
      have r40 := r38.u16_ok hl
      refine Ends.bind (Ends.ite (ends_ok _) (ends_fail _)) fun e he => ?_
      refine (ends_serverExtensions fuel r40 (by omega) _).bind fun s _ => ?_
      unfold checkSeen
      refine Ends.ite (ends_fail _) (Ends.ite (ends_fail _) (Ends.ite (ends_fail _) ?_))
      split
      · exact ends_ok _
      · exact ends_fail _
  exact main

/-! ## Encrypted extensions -/

theorem recvServerName_iff {r : CircleReader} {d : Bytes} {p : Nat} (h : CRel r d p) {len : UInt16} {r' : CircleReader} :
    recvServerName len r = .ok r' ↔ p + len.toNat ≤ d.length ∧ r' = r.adv len.toNat := by
  have hs := h.small
  have hl := len.toNat_lt
  unfold recvServerName
  simp only [ok_bind_iff]
  by_cases c : len.toNat - min 253 len.toNat > 0
  · simp only [c, if_true]
    have hm : min 253 len.toNat = 253 := by omega
    rw [hm]
    constructor
    · rintro ⟨x, h1, h2⟩
      have r2 := h.readExact_rel h1
      obtain ⟨-, -, h3⟩ := h.readExact_iff.1 h1
      obtain ⟨h4, rfl⟩ := r2.skip_iff.1 h2
      have e : (len - UInt16.ofNat 253).toNat = len.toNat - 253 := by rw [u16_sub_toNat, UInt16.toNat_ofNat']; omega
      rw [e] at h4 ⊢
      refine ⟨by omega, ?_⟩
      rw [h3, adv_adv, show 253 + (len.toNat - 253) = len.toNat from by omega]
    · rintro ⟨h1, rfl⟩
      have e : (len - UInt16.ofNat 253).toNat = len.toNat - 253 := by rw [u16_sub_toNat, UInt16.toNat_ofNat']; omega
      have r2 := h.add 253 (by omega)
      refine ⟨_, h.readExact_ok (by omega), r2.skip_iff.2 ⟨by rw [e]; omega, ?_⟩⟩
      rw [e]
      have := adv_adv r 253 (len.toNat - 253)
      rw [show 253 + (len.toNat - 253) = len.toNat from by omega] at this
      exact this.symm
  · simp only [c, if_false]
    have hm : min 253 len.toNat = len.toNat := by omega
    rw [hm]
    constructor
    · rintro ⟨x, h1, h2⟩
      have r2 := h.readExact_rel h1
      obtain ⟨-, -, h3⟩ := h.readExact_iff.1 h1
      injection h2 with h2
      exact ⟨r2.pos, by rw [← h2, h3]⟩
    · rintro ⟨h1, rfl⟩
      exact ⟨_, h.readExact_ok (by omega), rfl⟩

/-- An ignored extension of the given type. -/
theorem skip_prefix {r : CircleReader} {d : Bytes} {p : Nat} (h : CRel r d p) (t len : UInt16) :
    (toBe16 t <+: d.drop p ∧ toBe16 len <+: d.drop (p + 2) ∧ p + 2 + 2 + len.toNat ≤ d.length) ↔
    ∃ data, data.length = len.toNat ∧ Spec.Tls.extension t.toNat data <+: d.drop p := by
  constructor
  · rintro ⟨h1, h2, h3⟩
    refine ⟨(d.drop (p + 2 + 2)).take len.toNat, by simp; omega, ?_⟩
    have e : ((d.drop (p + 2 + 2)).take len.toNat).length = len.toNat := by simp; omega
    rw [Spec.Tls.extension, u16_bytes, e, u16_bytes, prefix_append_iff, prefix_append_iff]
    exact ⟨⟨h1, h2⟩, List.take_prefix _ _⟩
  · rintro ⟨data, hd, h1⟩
    rw [Spec.Tls.extension, u16_bytes, hd, u16_bytes, prefix_append_iff, prefix_append_iff] at h1
    obtain ⟨⟨h1, h2⟩, h3⟩ := h1
    have r4 := (h.adv h1).adv h2
    have := prefix_length h3 r4.pos
    exact ⟨h1, h2, by rw [← hd]; exact this⟩

open _root_.Verif.Spec.Tls (Ignored extension)

theorem recvEncryptedExtension_iff {r : CircleReader} {d : Bytes} {p : Nat} (h : CRel r d p) {r' : CircleReader} :
    recvEncryptedExtension r = .ok r' ↔ ∃ e : Ignored, extension e.type e.data <+: d.drop p ∧
      r' = r.adv (extension e.type e.data).length := by
  have elen : ∀ t data, (extension t data).length = 2 + (2 + data.length) := by
    intro t data; simp [extension, u16_length]; try omega
  unfold recvEncryptedExtension
  simp only [ok_bind_iff, h.u16_iff]
  constructor
  · rintro ⟨⟨t, _⟩, ⟨h1, rfl⟩, h2⟩
    simp only at h1 h2
    have r2 : CRel (r.adv 2) d (p + 2) := h.adv h1
    split at h2
    · exact absurd h2 (by simp [fail])
    · rename_i ty ht
      rw [extensionType_iff] at ht
      subst ht
      simp only [ok_bind_iff, r2.u16_iff, ite_fail_iff] at h2
      obtain ⟨⟨len, _⟩, ⟨h2, rfl⟩, y, h3, h4, h5⟩ := h2
      injection h5 with h5; subst h5
      simp only [Decidable.not_not] at h2 h3 h4
      have r4 : CRel ((r.adv 2).adv 2) d (p + 2 + 2) := r2.adv h2
      have key : p + 2 + 2 + len.toNat ≤ d.length ∧ y = ((r.adv 2).adv 2).adv len.toNat ∧
          (ty.code.toNat = 0 ∨ ty.code.toNat = 10 ∨ ty.code.toNat = 16) := by
        split at h3
        · obtain ⟨a, b⟩ := (recvServerName_iff r4).1 h3; exact ⟨a, b, .inl rfl⟩
        · obtain ⟨a, b⟩ := r4.skip_iff.1 h3; exact ⟨a, b, .inr (.inl rfl)⟩
        · obtain ⟨a, b⟩ := r4.skip_iff.1 h3; exact ⟨a, b, .inr (.inr rfl)⟩
        · exact absurd h3 (by simp [fail])
      obtain ⟨k1, k2, k3⟩ := key
      obtain ⟨data, hd, hx⟩ := (skip_prefix h ty.code len).1 ⟨h1, h2, k1⟩
      refine ⟨⟨ty.code.toNat, data, k3⟩, hx, ?_⟩
      rw [k2, elen, adv_adv, adv_adv]
      simp only [hd]
  · rintro ⟨⟨t, data, ht⟩, h1, rfl⟩
    simp only at h1 ⊢
    have hlen := prefix_length h1 h.pos
    rw [elen] at hlen
    have hs := h.small
    obtain ⟨ty, hty, hkind⟩ : ∃ ty : ExtensionType, ty.code.toNat = t ∧
        (ty = .serverName ∨ ty = .supportedGroups ∨ ty = .applicationLayerProtocolNegotiation) := by
      rcases ht with rfl | rfl | rfl
      · exact ⟨.serverName, rfl, .inl rfl⟩
      · exact ⟨.supportedGroups, rfl, .inr (.inl rfl)⟩
      · exact ⟨.applicationLayerProtocolNegotiation, rfl, .inr (.inr rfl)⟩
    obtain ⟨len, hl⟩ : ∃ v : UInt16, v.toNat = data.length := ⟨UInt16.ofNat data.length, by rw [UInt16.toNat_ofNat']; omega⟩
    subst hty
    obtain ⟨h2, h3, h4⟩ := (skip_prefix h ty.code len).2 ⟨data, hl.symm, h1⟩
    have r2 : CRel (r.adv 2) d (p + 2) := h.adv h2
    have r4 : CRel ((r.adv 2).adv 2) d (p + 2 + 2) := r2.adv h3
    refine ⟨(ty.code, r.adv 2), ⟨h2, rfl⟩, ?_⟩
    simp only [(extensionType_iff ty.code ty).2 rfl, ok_bind_iff, ite_fail_iff]
    refine ⟨(len, (r.adv 2).adv 2), r2.u16_iff.2 ⟨h3, rfl⟩, ((r.adv 2).adv 2).adv len.toNat, ?_, ?_, ?_⟩
    · rcases hkind with rfl | rfl | rfl
      · exact (recvServerName_iff r4).2 ⟨h4, rfl⟩
      · exact r4.skip_iff.2 ⟨h4, rfl⟩
      · exact r4.skip_iff.2 ⟨h4, rfl⟩
    · rw [Decidable.not_not]
      apply UInt16.toNat_inj.1
      exact (adv_sub len.toNat_lt).symm
    · rw [elen, ← hl, adv_adv, adv_adv]

theorem ends_encryptedExtension {r : CircleReader} {d : Bytes} {p : Nat} (h : CRel r d p) : Ends (recvEncryptedExtension r) := by
  unfold recvEncryptedExtension
  refine h.ends_u16.bind fun t ht => ?_
  have r2 := h.u16_ok ht
  split
  · exact ends_fail _
  · refine r2.ends_u16.bind fun l hl => ?_
    have r4 := r2.u16_ok hl
    refine Ends.bind ?_ fun x _ => Ends.ite (ends_fail _) (ends_ok _)
    split
    · exact (r4.ends_readExact _).bind fun _ _ => Ends.ite (ends_skip _ _) (ends_ok _)
    · exact ends_skip _ _
    · exact ends_skip _ _
    · exact ends_fail _

theorem four_le_extension (t : Nat) (data : Bytes) : 4 ≤ (extension t data).length := by
  simp [extension, u16_length]; omega

theorem covers_cons' (E p : Nat) (e : Ignored) (l : List Ignored) :
    (p < E ∧ E ≤ p + (extension e.type e.data).length + (Ignored.listBytes l).length ∧
      (l = [] ∨ p + (extension e.type e.data).length + (Ignored.listBytes l.dropLast).length < E)) ↔
    (E ≤ p + (Ignored.listBytes (e :: l)).length ∧ p + (Ignored.listBytes (e :: l).dropLast).length < E) := by
  have hc : ∀ l, (Ignored.listBytes (e :: l)).length = (extension e.type e.data).length + (Ignored.listBytes l).length := by
    intro l; simp [Ignored.listBytes]
  have := four_le_extension e.type e.data
  cases l with
  | nil => simp only [hc, List.dropLast_singleton]; simp [Ignored.listBytes]; omega
  | cons f l =>
    rw [hc, List.dropLast_cons_of_ne_nil (x := e) (l := f :: l) (by simp), hc]
    constructor
    · rintro ⟨h1, h2, h3 | h3⟩
      · exact absurd h3 (by simp)
      · omega
    · rintro ⟨h1, h2⟩
      exact ⟨by omega, by omega, .inr (by omega)⟩

theorem encryptedLoop {d : Bytes} {E : UInt16} : ∀ (fuel : Nat) {r : CircleReader} {p : Nat} (_ : CRel r d p)
    (_ : d.length < p + fuel), Ends (recvEncryptedExtensionsLoop fuel E r) ∧
    (recvEncryptedExtensionsLoop fuel E r = .ok () ↔ ∃ l, Ignored.listBytes l <+: d.drop p ∧
      E.toNat ≤ p + (Ignored.listBytes l).length ∧ (l = [] ∨ p + (Ignored.listBytes l.dropLast).length < E.toNat))
  | 0, r, p, h, hf => by have := h.pos; omega
  | fuel + 1, r, p, h, hf => by
    have hp := h.ptr
    unfold recvEncryptedExtensionsLoop
    have ih : ∀ e : Ignored, extension e.type e.data <+: d.drop p → _ := fun e h1 =>
      encryptedLoop (E := E) fuel (h.adv h1) (by have := four_le_extension e.type e.data; omega)
    refine ⟨Ends.ite ((ends_encryptedExtension h).bind fun x hx => ?_) (ends_ok _), ?_⟩
    · obtain ⟨e, h1, rfl⟩ := (recvEncryptedExtension_iff h).1 hx
      exact (ih e h1).1
    by_cases c : E > r.ptr
    · rw [if_pos c]
      have c : r.ptr < E := c
      rw [UInt16.lt_iff_toNat_lt, hp] at c
      simp only [ok_bind_iff, recvEncryptedExtension_iff h]
      constructor
      · rintro ⟨x, ⟨e, h1, rfl⟩, h2⟩
        obtain ⟨l, h3, h5⟩ := (ih e h1).2.1 h2
        refine ⟨e :: l, ?_, ?_⟩
        · rw [show Ignored.listBytes (e :: l) = extension e.type e.data ++ Ignored.listBytes l from rfl, prefix_append_iff]
          exact ⟨h1, h3⟩
        · have := (covers_cons' _ _ _ _).1 ⟨c, h5⟩
          exact ⟨this.1, .inr this.2⟩
      · rintro ⟨l, h1, h3, h4⟩
        cases l with
        | nil => simp [Ignored.listBytes] at h3; omega
        | cons e l =>
          rw [show Ignored.listBytes (e :: l) = extension e.type e.data ++ Ignored.listBytes l from rfl, prefix_append_iff] at h1
          refine ⟨_, ⟨e, h1.1, rfl⟩, (ih e h1.1).2.2 ?_⟩
          have := (covers_cons' _ _ _ _).2 ⟨h3, h4.resolve_left (by simp)⟩
          exact ⟨l, h1.2, this.2⟩
    · rw [if_neg c]
      have c : ¬ r.ptr < E := c
      rw [UInt16.lt_iff_toNat_lt, hp] at c
      exact ⟨fun _ => ⟨[], List.nil_prefix, by simp [Ignored.listBytes]; omega, .inl rfl⟩, fun _ => rfl⟩

/-- **C58.** Encrypted extensions are accepted exactly if they are a list of extensions that the client may ignore (server name,
supported groups, application protocol); the length in front only has to end within the last one.  Parsing them ends with
success or with an alert. -/
theorem C58_encrypted_extensions_accepted_iff (a b : Bytes) (small : (a ++ b).length ≤ 32767) (fuel : Nat)
    (hf : (a ++ b).length < fuel) :
    (recvEncryptedExtensions fuel (CircleReader.new a b) = .ok () ↔
      ∃ len extensions rest, len < 65536 ∧ a ++ b = Spec.Tls.u16 len ++ (Ignored.listBytes extensions ++ rest) ∧
        (extensions = [] ∨ (Ignored.listBytes extensions.dropLast).length < len) ∧ len ≤ (Ignored.listBytes extensions).length) ∧
    (recvEncryptedExtensions fuel (CircleReader.new a b) = .ok () ∨
      ∃ alert, recvEncryptedExtensions fuel (CircleReader.new a b) = .error (.err alert)) := by
  have h : CRel (CircleReader.new a b) (a ++ b) 0 := ⟨rfl, rfl, Nat.zero_le _, small⟩
  constructor
  · unfold recvEncryptedExtensions
    simp only [ok_bind_iff, h.u16_iff, extensionsEnd_iff]
    constructor
    · rintro ⟨⟨len, _⟩, ⟨h1, rfl⟩, e, h2, h3⟩
      simp only at h1 h2 h3
      have r2 : CRel ((CircleReader.new a b).adv 2) (a ++ b) 2 := h.adv h1
      rw [r2.ptr] at h2
      obtain ⟨h2, rfl⟩ := h2
      obtain ⟨l, h4, h5, h6⟩ := (encryptedLoop fuel r2 (by omega)).2.1 h3
      rw [UInt16.toNat_add, r2.ptr, Nat.mod_eq_of_lt h2] at h5 h6
      refine ⟨len.toNat, l, (a ++ b).drop (2 + (Ignored.listBytes l).length), len.toNat_lt, ?_, ?_, by omega⟩
      · have e1 := prefix_drop_eq h1
        have e2 := prefix_drop_eq h4
        rw [List.drop_zero] at e1
        rw [u16_bytes, ← e2]; exact e1
      · rcases h6 with h6 | h6
        · exact .inl h6
        · exact .inr (by omega)
    · rintro ⟨len, l, rest, hl, h1, h2, h3⟩
      obtain ⟨len, rfl⟩ : ∃ v : UInt16, v.toNat = len := ⟨UInt16.ofNat len, by rw [UInt16.toNat_ofNat']; omega⟩
      have hp : Spec.Tls.u16 len.toNat ++ (Ignored.listBytes l ++ rest) <+: (a ++ b).drop 0 := by
        rw [List.drop_zero, h1]; exact List.prefix_rfl
      rw [← List.append_assoc] at hp
      simp only [prefix_append_iff, u16_bytes] at hp
      obtain ⟨⟨p1, p2⟩, p3⟩ := hp
      have r2 : CRel ((CircleReader.new a b).adv 2) (a ++ b) 2 := h.adv p1
      have hq := r2.ptr
      have := prefix_length p2 r2.pos
      refine ⟨(len, (CircleReader.new a b).adv 2), ⟨p1, rfl⟩, _, ⟨by simp only [hq]; simp at this small; omega, rfl⟩,
        (encryptedLoop fuel r2 (by omega)).2.2 ⟨l, p2, ?_, ?_⟩⟩
      · simp only [UInt16.toNat_add, hq]; omega
      · rcases h2 with h2 | h2
        · exact .inl h2
        · right; simp only [UInt16.toNat_add, hq]; simp at this small; omega
  · have main : Ends (recvEncryptedExtensions fuel (CircleReader.new a b)) := by
      unfold recvEncryptedExtensions
      refine h.ends_u16.bind fun l hl => Ends.bind (Ends.ite (ends_ok _) (ends_fail _)) fun e he => ?_
      exact (encryptedLoop fuel (h.u16_ok hl) (by omega)).1
    rcases main with ⟨_, h⟩ | h
    · exact .inl h
    · exact .inr h

/-! ## Examples -/

/-- A server hello with its extensions in the order of a common server, split at byte 50. -/
def sampleHello : Bytes := Spec.Tls.helloBytes (List.replicate 32 7) 85
  (listBytes [.tls13, .keyShare (4 :: List.replicate 64 9), .firstIdentity])

example : recvServerHello 200 (fun k => some k) (CircleReader.new (sampleHello.take 50) (sampleHello.drop 50)) =
    .ok (4 :: List.replicate 64 9) := by decide +kernel

example : Spec.Tls.Selects [.tls13, .keyShare (4 :: List.replicate 64 9), .firstIdentity] (4 :: List.replicate 64 9) :=
  ⟨rfl, rfl, by decide, by decide⟩

/-- The length of the extensions need not be exact, and bytes may follow. -/
example : recvServerHello 200 (fun k => some k) (CircleReader.new (Spec.Tls.helloBytes (List.replicate 32 7) 80
    (listBytes [.tls13, .keyShare (4 :: List.replicate 64 9), .firstIdentity] ++ [1, 2, 3])) []) =
    .ok (4 :: List.replicate 64 9) := by decide +kernel

/-- Another cipher suite, a second key share. -/
example : recvServerHello 200 (fun k => some k) (CircleReader.new (sampleHello.set 36 2) []) = .error (.err .handshakeFailure) := by
  decide +kernel

example : recvServerHello 300 (fun k => some k) (CircleReader.new (Spec.Tls.helloBytes (List.replicate 32 7) 158
    (listBytes [.tls13, .keyShare (4 :: List.replicate 64 9), .firstIdentity, .keyShare (4 :: List.replicate 64 8)])) []) =
    .error (.err .illegalParameter) := by decide +kernel

example : recvEncryptedExtensions 20 (CircleReader.new [0, 8, 0, 10, 0, 4] [0, 2, 0, 0x17]) = .ok () := by decide +kernel

example : recvEncryptedExtensions 20 (CircleReader.new [0, 8, 0, 42, 0, 4] [0, 2, 0, 0x17]) = .error (.err .unsupportedExtension) := by
  decide +kernel

end Verif.Tls
