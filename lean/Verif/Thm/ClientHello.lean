import Verif.Model.Tls.ClientHello
import Verif.Spec.ClientHello
import Verif.Proof.TlsParse
import Verif.Thm.TlsKeys
/-!
# The client hello is the one of RFC 8446
-/
namespace Verif.Tls
open Verif Hl
variable {x : Crypto}

namespace ClientHelloWriter

/-- The writer after some bytes that fit. -/
def put (w : ClientHelloWriter x) (s : Bytes) : ClientHelloWriter x :=
  { w with out := w.out ++ s, ks := { w.ks with transcript := w.ks.transcript ++ s } }

def Fits (w : ClientHelloWriter x) (s : Bytes) : Prop := w.out.length + s.length ≤ w.cap

theorem copyNoHash_iff (w w' : ClientHelloWriter x) (s : Bytes) :
    w.copyNoHash s = .ok w' ↔ w.Fits s ∧ w' = { w with out := w.out ++ s } := by
  unfold copyNoHash Fits
  split
  · rename_i h; simp only [h, true_and, Except.ok.injEq]; exact eq_comm
  · rename_i h; simp [h]

theorem copy_iff (w w' : ClientHelloWriter x) (s : Bytes) : w.copy s = .ok w' ↔ w.Fits s ∧ w' = w.put s := by
  unfold copy copyNoHash Fits
  split
  · rename_i h; simp only [h, true_and, Except.map, Except.ok.injEq]; exact eq_comm
  · rename_i h; simp [h, Except.map]

theorem put_put (w : ClientHelloWriter x) (s t : Bytes) : (w.put s).put t = w.put (s ++ t) := by
  simp [put, List.append_assoc]

theorem fits_put (w : ClientHelloWriter x) (s t : Bytes) : w.Fits s ∧ (w.put s).Fits t ↔ w.Fits (s ++ t) := by
  simp only [Fits, put, List.length_append]
  omega

/-- Two steps that write bytes are one that writes them all. -/
theorem two {w w' : ClientHelloWriter x} {f g : ClientHelloWriter x → Except Err (ClientHelloWriter x)} {s t : Bytes}
    (hf : ∀ w', f w = .ok w' ↔ w.Fits s ∧ w' = w.put s)
    (hg : ∀ w', g (w.put s) = .ok w' ↔ (w.put s).Fits t ∧ w' = (w.put s).put t) :
    (f w >>= g) = .ok w' ↔ w.Fits (s ++ t) ∧ w' = w.put (s ++ t) := by
  rw [ok_bind_iff, ← fits_put, ← put_put]
  constructor
  · rintro ⟨a, ha, hb⟩
    obtain ⟨h1, rfl⟩ := (hf a).mp ha
    obtain ⟨h2, rfl⟩ := (hg _).mp hb
    exact ⟨⟨h1, h2⟩, rfl⟩
  · rintro ⟨⟨h1, h2⟩, rfl⟩
    exact ⟨_, (hf _).mpr ⟨h1, rfl⟩, (hg _).mpr ⟨h2, rfl⟩⟩

end ClientHelloWriter

open ClientHelloWriter

/-- Every error is a panic. -/
def OnlyPanic {α : Type} (r : Except Err α) : Prop := ∀ e, r = .error e → e = .panic

theorem OnlyPanic.bind {α β : Type} {r : Except Err α} {f : α → Except Err β} (h : OnlyPanic r) (hf : ∀ a, OnlyPanic (f a)) :
    OnlyPanic (r >>= f) := by
  intro e he
  match r, h with
  | .error e', h => rw [h e' rfl] at he; cases he; rfl
  | .ok a, _ => exact hf a e he

theorem onlyPanic_ok {α : Type} (a : α) : OnlyPanic (.ok a : Except Err α) := by intro e h; cases h

theorem onlyPanic_copyNoHash (w : ClientHelloWriter x) (s : Bytes) : OnlyPanic (w.copyNoHash s) := by
  intro e h; unfold copyNoHash at h; split at h
  · exact absurd h nofun
  · cases h; rfl

theorem onlyPanic_copy (w : ClientHelloWriter x) (s : Bytes) : OnlyPanic (w.copy s) := by
  intro e h; unfold copy copyNoHash at h; split at h
  · exact absurd h nofun
  · cases h; rfl

theorem onlyPanic_add16 (dbg : Bool) (a b : UInt16) : OnlyPanic (add16 dbg a b) := by
  intro e h; unfold add16 at h; split at h
  · cases h; rfl
  · exact absurd h nofun

theorem onlyPanic_assertEq16 (a b : UInt16) : OnlyPanic (assertEq16 a b) := by
  intro e h; unfold assertEq16 at h; split at h
  · exact absurd h nofun
  · cases h; rfl

theorem onlyPanic_ser (dbg : Bool) (cap : Nat) (a : HelloArgs) (ks : KeySchedule x) : OnlyPanic (clientHelloSer dbg cap a ks) := by
  unfold clientHelloSer HelloArgs.lengths HelloArgs.serverName HelloArgs.keyShare HelloArgs.recordSize HelloArgs.preSharedKey
  repeat (first
    | apply onlyPanic_copy | apply onlyPanic_copyNoHash | apply onlyPanic_add16 | apply onlyPanic_assertEq16 | apply onlyPanic_ok
    | refine OnlyPanic.bind ?_ fun _ => ?_)

/-! ## The parts -/

theorem fits_put' (w : ClientHelloWriter x) (s t : Bytes) (P : Prop) :
    w.Fits s ∧ (w.put s).Fits t ∧ P ↔ w.Fits (s ++ t) ∧ P := by rw [← and_assoc, fits_put]

theorem add16_iff (dbg : Bool) (a b c : UInt16) :
    add16 dbg a b = .ok c ↔ ¬ (dbg = true ∧ 65536 ≤ a.toNat + b.toNat) ∧ c = a + b := by
  unfold add16
  split
  · rename_i h; simp [h]
  · rename_i h; simp only [h, not_false_eq_true, true_and, Except.ok.injEq]; exact eq_comm

theorem assertEq16_iff (a b : UInt16) (u : Unit) : assertEq16 a b = .ok u ↔ a = b := by
  unfold assertEq16
  split <;> simp_all

section parts
open _root_.Verif.Spec.Tls (vec16 u16 vec8)

theorem vec16_length (b : Bytes) : (vec16 b).length = 2 + b.length := by simp [vec16, u16_length]
theorem extension_length (t : Nat) (b : Bytes) : (Spec.Tls.extension t b).length = 4 + b.length := by
  simp [Spec.Tls.extension, u16_length]; omega

theorem serverName_iff (a : HelloArgs) (hh : a.hostname.length < 256) (w w' : ClientHelloWriter x) :
    a.serverName w = .ok w' ↔
      w.Fits (Spec.Tls.extension 0 (vec16 ([0] ++ vec16 a.hostname))) ∧
      w' = w.put (Spec.Tls.extension 0 (vec16 ([0] ++ vec16 a.hostname))) := by
  have hn : (hostnameLen a.hostname).toUInt16.toNat = a.hostname.length := by
    rw [UInt8.toNat_toUInt16]
    show (UInt8.ofNat _).toNat = _
    rw [UInt8.toNat_ofNat']; omega
  have h3 : ((hostnameLen a.hostname).toUInt16 + 3).toNat = a.hostname.length + 3 := by
    rw [UInt16.toNat_add, hn]; show (_ + 3) % 65536 = _; omega
  have h5 : ((hostnameLen a.hostname).toUInt16 + 3 + 2).toNat = a.hostname.length + 5 := by
    rw [UInt16.toNat_add, h3]; show (_ + 2) % 65536 = _; omega
  have hb : Spec.Tls.extension 0 (vec16 ([0] ++ vec16 a.hostname)) =
      toBe16 ExtensionType.serverName.code ++ (toBe16 ((hostnameLen a.hostname).toUInt16 + 3 + 2) ++
        (toBe16 ((hostnameLen a.hostname).toUInt16 + 3) ++ ([0] ++ (toBe16 (hostnameLen a.hostname).toUInt16 ++ a.hostname)))) := by
    rw [toBe16_u16 (_ + 3 + 2), h5, toBe16_u16 (_ + 3), h3, toBe16_u16 (hostnameLen _).toUInt16, hn]
    unfold Spec.Tls.extension
    rw [vec16_length, List.length_append, vec16_length]
    unfold vec16
    rw [List.length_append, List.length_append, u16_length]
    rw [show 2 + ([(0 : UInt8)].length + (2 + a.hostname.length)) = a.hostname.length + 5 from by show 2 + (1 + _) = _; omega,
      show [(0 : UInt8)].length + (2 + a.hostname.length) = a.hostname.length + 3 from by show 1 + _ = _; omega]
    simp only [List.append_assoc]
    rfl
  rw [hb]
  simp only [HelloArgs.serverName, ok_bind_iff, copy_iff, and_assoc, exists_and_left, exists_eq_left, put_put, fits_put']

theorem keyShare_iff (a : HelloArgs) (hk : a.publicKey.length = 65) (w w' : ClientHelloWriter x) :
    a.keyShare w = .ok w' ↔
      w.Fits (Spec.Tls.extension 51 (vec16 (u16 0x0017 ++ vec16 a.publicKey))) ∧
      w' = w.put (Spec.Tls.extension 51 (vec16 (u16 0x0017 ++ vec16 a.publicKey))) := by
  have hb : Spec.Tls.extension 51 (vec16 (u16 0x0017 ++ vec16 a.publicKey)) =
      toBe16 ExtensionType.keyShare.code ++ toBe16 (65 + 2 + 2 + 2) ++ toBe16 (65 + 2 + 2) ++
      toBe16 NamedGroup.secp256r1.code ++ toBe16 65 ++ a.publicKey := by
    unfold Spec.Tls.extension
    rw [vec16_length, List.length_append, vec16_length, u16_length, hk]
    unfold vec16
    rw [List.length_append, List.length_append, u16_length, u16_length, hk]
    simp only [List.append_assoc]
    rfl
  rw [hb]
  simp only [HelloArgs.keyShare, ok_bind_iff, copy_iff, and_assoc, exists_and_left, exists_eq_left, put_put, fits_put']

theorem recordSize_iff (a : HelloArgs) (w w' : ClientHelloWriter x) :
    a.recordSize w = .ok w' ↔
      w.Fits (Spec.Tls.extension 28 (u16 a.recordSizeLimit.toNat)) ∧
      w' = w.put (Spec.Tls.extension 28 (u16 a.recordSizeLimit.toNat)) := by
  have hb : Spec.Tls.extension 28 (u16 a.recordSizeLimit.toNat) =
      toBe16 ExtensionType.recordSizeLimit.code ++ (toBe16 2 ++ toBe16 a.recordSizeLimit) := by
    rw [toBe16_u16 a.recordSizeLimit]
    unfold Spec.Tls.extension
    rw [u16_length, List.append_assoc]
    rfl
  rw [hb]
  simp only [HelloArgs.recordSize, ok_bind_iff, copy_iff, and_assoc, exists_and_left, exists_eq_left, put_put, fits_put']

/-- The pre-shared key extension up to the identities. -/
def pskHead (identity : Bytes) : Bytes :=
  toBe16 41 ++ (toBe16 (UInt16.ofNat identity.length + 4 + 2 + 33 + 2 + 2) ++
    (toBe16 (UInt16.ofNat identity.length + 4 + 2) ++ (toBe16 (UInt16.ofNat identity.length) ++ (identity ++ [0, 0, 0, 0]))))

/-- The sums of the lengths do not overflow. -/
def PskNoOverflow (n : UInt16) : Prop :=
  ¬ 65536 ≤ n.toNat + 4 ∧ ¬ 65536 ≤ (n + 4).toNat + 2 ∧ ¬ 65536 ≤ (n + 4 + 2).toNat + 33 ∧ ¬ 65536 ≤ (n + 4 + 2 + 33).toNat + 2 ∧
  ¬ 65536 ≤ (n + 4 + 2 + 33 + 2).toNat + 2

theorem preSharedKey_iff (hx : x.Standard) (dbg : Bool) (a : HelloArgs) (w w' : ClientHelloWriter x) :
    a.preSharedKey dbg w = .ok w' ↔
      (dbg = true → PskNoOverflow (UInt16.ofNat a.identity.length)) ∧
      w.out.length + (pskHead a.identity).length + 35 ≤ w.cap ∧
      w' = { w with
        out := w.out ++ (pskHead a.identity ++ ([0, 33, 32] ++ Spec.Tls.binder a.psk (w.ks.transcript ++ pskHead a.identity)))
        ks := { w.ks with
          transcript := w.ks.transcript ++
            (pskHead a.identity ++ ([0, 33, 32] ++ Spec.Tls.binder a.psk (w.ks.transcript ++ pskHead a.identity)))
          secret := Spec.Tls.earlySecret a.psk, hkdf := Spec.Tls.earlySecret a.psk } } := by
  simp only [HelloArgs.preSharedKey, ok_bind_iff, copy_iff, and_assoc, exists_and_left, exists_eq_left, put_put, add16_iff, fits_put', writeBinder]
  have e1 : toBe16 ExtensionType.preSharedKey.code ++
      (toBe16 (UInt16.ofNat a.identity.length + 4 + 2 + (32 + 1) + 2 + 2) ++
        (toBe16 (UInt16.ofNat a.identity.length + 4 + 2) ++ (toBe16 (UInt16.ofNat a.identity.length) ++
          (a.identity ++ ([0, 0, 0, 0] ++ (toBe16 (32 + 1) ++ [32])))))) = pskHead a.identity ++ [0, 33, 32] := by
    unfold pskHead
    simp only [List.append_assoc]
    rfl
  have e2 : toBe16 ExtensionType.preSharedKey.code ++
      (toBe16 (UInt16.ofNat a.identity.length + 4 + 2 + (32 + 1) + 2 + 2) ++
        (toBe16 (UInt16.ofNat a.identity.length + 4 + 2) ++ (toBe16 (UInt16.ofNat a.identity.length) ++
          (a.identity ++ [0, 0, 0, 0])))) = pskHead a.identity := rfl
  rw [e1, e2, (C79_binder hx _ _ _).1, (C79_binder hx _ _ _).2]
  have hl : ∀ m, (Spec.Tls.binder a.psk m).length = 32 := fun m => hmac_length _ _
  simp only [put, Fits, List.length_append, hl, List.append_assoc]
  have hd : (¬(dbg = true ∧ 65536 ≤ (UInt16.ofNat a.identity.length).toNat + UInt16.toNat 4) ∧
      ¬(dbg = true ∧ 65536 ≤ (UInt16.ofNat a.identity.length + 4).toNat + UInt16.toNat 2) ∧
        ¬(dbg = true ∧ 65536 ≤ (UInt16.ofNat a.identity.length + 4 + 2).toNat + (32 + 1 : UInt16).toNat) ∧
          ¬(dbg = true ∧ 65536 ≤ (UInt16.ofNat a.identity.length + 4 + 2 + (32 + 1)).toNat + UInt16.toNat 2) ∧
            ¬(dbg = true ∧
                  65536 ≤ (UInt16.ofNat a.identity.length + 4 + 2 + (32 + 1) + 2).toNat + UInt16.toNat 2)) ↔
      (dbg = true → PskNoOverflow (UInt16.ofNat a.identity.length)) := by
    unfold PskNoOverflow
    cases dbg
    · simp
    · simp only [true_and, true_implies]; rfl
  rw [← hd]
  have h3 : [(0 : UInt8), 33, 32].length = 3 := rfl
  simp only [and_assoc, h3]
  constructor
  · rintro ⟨h1, h2, h3, h4, h5, h6, h7, rfl⟩
    exact ⟨h1, h2, h3, h4, h5, by omega, rfl⟩
  · rintro ⟨h1, h2, h3, h4, h5, h6, rfl⟩
    exact ⟨h1, h2, h3, h4, h5, by omega, by omega, rfl⟩

/-- The arguments as the offer of the specification. -/
def HelloArgs.offer (a : HelloArgs) : Spec.Tls.Offer :=
  { random := a.random, host := a.hostname, publicKey := a.publicKey, psk := a.psk, identity := a.identity
    limit := a.recordSizeLimit.toNat }

/-- The message up to the pre-shared key extension. -/
def helloHead (a : HelloArgs) (e h : UInt16) : Bytes :=
  [1] ++ ([0] ++ (toBe16 h ++ (toBe16 771 ++ (a.random ++ (legacyThingsAndCipherSuites ++ (toBe16 e ++ (constExtensions ++
    (Spec.Tls.extension 0 (vec16 ([0] ++ vec16 a.hostname)) ++
      (Spec.Tls.extension 51 (vec16 (u16 0x0017 ++ vec16 a.publicKey)) ++
        Spec.Tls.extension 28 (u16 a.recordSizeLimit.toNat))))))))))

theorem const_length : constExtensions.length = 45 := by decide +kernel
theorem legacy_length : legacyThingsAndCipherSuites.length = 7 := by decide +kernel

theorem head_length (a : HelloArgs) (e h : UInt16) (hr : a.random.length = 32) (hk : a.publicKey.length = 65) :
    (helloHead a e h).length = 4 + 43 + 45 + (9 + a.hostname.length) + 75 + 6 := by
  simp only [helloHead, List.length_append, toBe16_length, const_length, legacy_length, hr, hk, extension_length, vec16_length,
    u16_length, List.length_cons, List.length_nil]
  omega

theorem pskHead_length (i : Bytes) : (pskHead i).length = 12 + i.length := by
  simp only [pskHead, List.length_append, toBe16_length, List.length_cons, List.length_nil]
  omega

theorem ser_iff (hx : x.Standard) (dbg : Bool) (cap : Nat) (a : HelloArgs) (ks : KeySchedule x) (r : Bytes × KeySchedule x)
    (hr : a.random.length = 32) (hk : a.publicKey.length = 65) (hh : a.hostname.length < 256) :
    clientHelloSer dbg cap a ks = .ok r ↔ ∃ e h p, a.lengths dbg = .ok (e, h, p) ∧
      (dbg = true → PskNoOverflow (UInt16.ofNat a.identity.length)) ∧
      5 + (helloHead a e h).length + (pskHead a.identity).length + 35 ≤ cap ∧
      UInt16.ofNat (137 + 45 + a.hostname.length + a.identity.length) = e ∧
      UInt16.ofNat (43 + (137 + 45 + a.hostname.length + a.identity.length)) = h ∧
      UInt16.ofNat (4 + (43 + (137 + 45 + a.hostname.length + a.identity.length))) = p ∧
      r = ([22, 3, 3] ++ toBe16 p ++ (helloHead a e h ++ pskHead a.identity ++ ([0, 33, 32] ++
          Spec.Tls.binder a.psk (ks.transcript ++ (helloHead a e h ++ pskHead a.identity)))),
        { ks with
          transcript := ks.transcript ++ (helloHead a e h ++ pskHead a.identity ++ ([0, 33, 32] ++
            Spec.Tls.binder a.psk (ks.transcript ++ (helloHead a e h ++ pskHead a.identity))))
          secret := Spec.Tls.earlySecret a.psk, hkdf := Spec.Tls.earlySecret a.psk }) := by
  simp only [clientHelloSer, serverName_iff a hh, keyShare_iff a hk, recordSize_iff, preSharedKey_iff hx,
    ok_bind_iff, copy_iff, copyNoHash_iff, and_assoc, exists_and_left, exists_eq_left, Prod.exists, put_put, fits_put',
    assertEq16_iff, exists_const]
  apply exists_congr; intro e
  apply exists_congr; intro h
  apply exists_congr; intro p
  rw [show ([HandshakeType.clientHello.code] ++ ([0] ++ (toBe16 h ++ (toBe16 771 ++ (a.random ++
    (legacyThingsAndCipherSuites ++ (toBe16 e ++ (constExtensions ++
    (Spec.Tls.extension 0 (vec16 ([0] ++ vec16 a.hostname)) ++
      (Spec.Tls.extension 51 (vec16 (u16 0x0017 ++ vec16 a.publicKey)) ++
        Spec.Tls.extension 28 (u16 a.recordSizeLimit.toNat))))))))))) = helloHead a e h from rfl]
  have hl : ∀ m, (Spec.Tls.binder a.psk m).length = 32 := fun m => hmac_length _ _
  have hrec : recordHeaderNoLength = [22, 3, 3] := rfl
  simp only [put, Fits, List.length_append, hl, hrec, toBe16_length, List.length_cons, List.length_nil, head_length a e h hr hk,
    pskHead_length, hr, legacy_length, List.nil_append]
  simp only [List.append_assoc, Except.ok.injEq]
  rw [show 0 + 1 + 1 + 1 + 2 + (4 + 43 + 45 + (9 + a.hostname.length) + 75 + 6) + (12 + a.identity.length + (0 + 1 + 1 + 1 + 32)) -
      (0 + 1 + 1 + 1 + 2 + (0 + 1 + (0 + 1 + (2 + (2 + (32 + (7 + 2))))))) =
      137 + 45 + a.hostname.length + a.identity.length from by omega,
    show 0 + 1 + 1 + 1 + 2 + (4 + 43 + 45 + (9 + a.hostname.length) + 75 + 6) + (12 + a.identity.length + (0 + 1 + 1 + 1 + 32)) -
      (0 + 1 + 1 + 1 + 2 + (0 + 1 + (0 + 1 + 2))) = 43 + (137 + 45 + a.hostname.length + a.identity.length) from by omega,
    show 0 + 1 + 1 + 1 + 2 + (4 + 43 + 45 + (9 + a.hostname.length) + 75 + 6) + (12 + a.identity.length + (0 + 1 + 1 + 1 + 32)) -
      (0 + 1 + 1 + 1 + 2) = 4 + (43 + (137 + 45 + a.hostname.length + a.identity.length)) from by omega]
  constructor
  · rintro ⟨h1, h2, h3, h4, h5, h6, h7, h8, h9, h10⟩
    exact ⟨h1, h5, by omega, h7, h8, h9, h10.symm⟩
  · rintro ⟨h1, h5, h6, h7, h8, h9, h10⟩
    exact ⟨h1, by omega, by omega, by omega, h5, by omega, h7, h8, h9, h10.symm⟩

/-- With fewer than 65536 bytes in all nothing overflows. -/
theorem lengths_run (dbg : Bool) (a : HelloArgs) (hh : a.hostname.length < 256)
    (hn : 4 + (43 + (137 + 45 + a.hostname.length + a.identity.length)) < 65536) :
    a.lengths dbg = .ok (UInt16.ofNat (137 + 45 + a.hostname.length + a.identity.length),
      UInt16.ofNat (43 + (137 + 45 + a.hostname.length + a.identity.length)),
      UInt16.ofNat (4 + (43 + (137 + 45 + a.hostname.length + a.identity.length)))) := by
  have add : ∀ m n : Nat, m + n < 65536 → add16 dbg (UInt16.ofNat m) (UInt16.ofNat n) = .ok (UInt16.ofNat (m + n)) := by
    intro m n hmn
    rw [add16_iff]
    constructor
    · rw [UInt16.toNat_ofNat', UInt16.toNat_ofNat']; omega
    · rw [UInt16.ofNat_add]
  have hhost : (hostnameLen a.hostname).toUInt16 = UInt16.ofNat a.hostname.length := by
    apply UInt16.toNat_inj.mp
    rw [UInt8.toNat_toUInt16]
    show (UInt8.ofNat _).toNat = _
    rw [UInt8.toNat_ofNat', UInt16.toNat_ofNat']; omega
  unfold HelloArgs.lengths
  rw [const_length, hhost]
  simp only [ok_bind_iff]
  exact ⟨_, add 137 45 (by omega), _, add (137 + 45) _ (by omega), _, add (137 + 45 + _) _ (by omega), _, add 43 _ (by omega),
    _, add 4 _ (by omega), rfl⟩

theorem psk_ok (n : Nat) (h : n + 43 < 65536) : PskNoOverflow (UInt16.ofNat n) := by
  have h0 : (UInt16.ofNat n).toNat = n := by rw [UInt16.toNat_ofNat']; omega
  unfold PskNoOverflow
  simp only [UInt16.toNat_add, h0]
  refine ⟨?_, ?_, ?_, ?_, ?_⟩ <;> simp <;> omega

/-- The bytes of the pre-shared key extension are those of the specification. -/
theorem psk_bytes (i b : Bytes) (hb : b.length = 32) (h : i.length + 43 < 65536) :
    Spec.Tls.extension 41 (vec16 (vec16 i ++ [0, 0, 0, 0]) ++ vec16 (vec8 b)) = pskHead i ++ ([0, 33, 32] ++ b) := by
  have h0 : (UInt16.ofNat i.length).toNat = i.length := by rw [UInt16.toNat_ofNat']; omega
  have h6 : (UInt16.ofNat i.length + 4 + 2).toNat = i.length + 6 := by
    simp only [UInt16.toNat_add, h0]; simp; omega
  have h43 : (UInt16.ofNat i.length + 4 + 2 + 33 + 2 + 2).toNat = i.length + 43 := by
    simp only [UInt16.toNat_add, h0]; simp; omega
  have hv : vec8 b = [32] ++ b := by unfold vec8; rw [hb]; rfl
  have hw : vec16 (vec8 b) = [0, 33, 32] ++ b := by
    unfold vec16; rw [hv, List.length_append, hb]; rfl
  have hi : vec16 (vec16 i ++ [0, 0, 0, 0]) = u16 (i.length + 6) ++ (u16 i.length ++ i ++ [0, 0, 0, 0]) := by
    unfold vec16
    rw [show List.length (u16 i.length ++ i ++ [0, 0, 0, 0]) = i.length + 6 from by
      simp only [List.length_append, u16_length, List.length_cons, List.length_nil]; omega]
  unfold Spec.Tls.extension pskHead
  rw [toBe16_u16 (UInt16.ofNat i.length), h0, toBe16_u16 (_ + 4 + 2), h6, toBe16_u16 (_ + 4 + 2 + 33 + 2 + 2), h43, hw, hi]
  rw [show List.length ((u16 (i.length + 6) ++ (u16 i.length ++ i ++ [0, 0, 0, 0])) ++ ([0, 33, 32] ++ b)) = i.length + 43 from by
    simp only [List.length_append, u16_length, List.length_cons, List.length_nil, hb]; omega]
  simp only [List.append_assoc]
  rfl

/-- The message of the specification, for any binder of 32 bytes. -/
theorem message_eq (a : HelloArgs) (b : Bytes) (hb : b.length = 32) (hr : a.random.length = 32) (hk : a.publicKey.length = 65)
    (hn : 43 + (137 + 45 + a.hostname.length + a.identity.length) < 65536) :
    a.offer.message b = helloHead a (UInt16.ofNat (137 + 45 + a.hostname.length + a.identity.length))
      (UInt16.ofNat (43 + (137 + 45 + a.hostname.length + a.identity.length))) ++ pskHead a.identity ++ ([0, 33, 32] ++ b) := by
  have hc : [Spec.Tls.extension 10 (vec16 (u16 0x0017)), Spec.Tls.extension 45 (vec8 [1]), Spec.Tls.extension 43 (vec8 (u16 0x0304)),
      Spec.Tls.extension 13 (vec16 ([0x0401, 0x0501, 0x0601, 0x0403, 0x0503, 0x0804, 0x0805, 0x0806, 0x0807].flatMap u16))].flatten =
      constExtensions := by decide +kernel
  have hext : (a.offer.extensions b).flatten = constExtensions ++ (Spec.Tls.extension 0 (vec16 ([0] ++ vec16 a.hostname)) ++
      (Spec.Tls.extension 51 (vec16 (u16 0x0017 ++ vec16 a.publicKey)) ++
        (Spec.Tls.extension 28 (u16 a.recordSizeLimit.toNat) ++ (pskHead a.identity ++ ([0, 33, 32] ++ b))))) := by
    rw [← psk_bytes _ _ hb (by omega), ← hc]
    unfold Spec.Tls.Offer.extensions
    simp only [List.flatten_cons, List.flatten_nil, List.append_nil, List.append_assoc]
    rfl
  have hel : ((a.offer.extensions b).flatten).length = 137 + 45 + a.hostname.length + a.identity.length := by
    rw [hext]
    simp only [List.length_append, const_length, extension_length, vec16_length, u16_length, hk, hb, pskHead_length,
      List.length_cons, List.length_nil]
    omega
  have hbody : a.offer.body b = toBe16 771 ++ (a.random ++ (legacyThingsAndCipherSuites ++
      (toBe16 (UInt16.ofNat (137 + 45 + a.hostname.length + a.identity.length)) ++ (a.offer.extensions b).flatten))) := by
    unfold Spec.Tls.Offer.body
    rw [toBe16_ofNat (by omega)]
    rw [show vec16 (a.offer.extensions b).flatten = u16 (137 + 45 + a.hostname.length + a.identity.length) ++
      (a.offer.extensions b).flatten from by unfold vec16; rw [hel]]
    rw [show legacyThingsAndCipherSuites = vec8 [] ++ (vec16 [0x13, 0x01] ++ vec8 [0]) from by decide +kernel]
    simp only [List.append_assoc]
    rfl
  have hbl : (a.offer.body b).length = 43 + (137 + 45 + a.hostname.length + a.identity.length) := by
    rw [hbody]
    simp only [List.length_append, toBe16_length, legacy_length, hel, hr]
    omega
  unfold Spec.Tls.Offer.message
  rw [hbl, Nat.div_eq_of_lt hn, ← toBe16_ofNat hn, hbody, hext]
  unfold helloHead
  simp only [List.append_assoc]
  rfl

end parts

/-- **C57.** The client hello is written as the record of the specification, with the binder for exactly the bytes before it, and the
transcript is exactly the message, whatever the arguments, if it fits in the buffer; otherwise the client panics. Buffers have at most
16384 bytes. -/
theorem C57_client_hello (hx : x.Standard) (dbg : Bool) (cap : Nat) (a : HelloArgs) (ks : KeySchedule x) (hc : cap < 65536)
    (hr : a.random.length = 32) (hk : a.publicKey.length = 65) (hh : a.hostname.length < 256) (ht : ks.transcript = []) :
    clientHelloSer dbg cap a ks =
      if 234 + a.hostname.length + a.identity.length ≤ cap then
        .ok (a.offer.record, { ks with
          transcript := a.offer.hello, secret := Spec.Tls.earlySecret a.psk, hkdf := Spec.Tls.earlySecret a.psk })
      else .error .panic := by
  split
  · rename_i hf
    rw [ser_iff hx dbg cap a ks _ hr hk hh]
    have hm := message_eq a (Spec.Tls.binder a.psk a.offer.truncated) (hmac_length _ _) hr hk (by omega)
    have htr : a.offer.truncated = helloHead a (UInt16.ofNat (137 + 45 + a.hostname.length + a.identity.length))
        (UInt16.ofNat (43 + (137 + 45 + a.hostname.length + a.identity.length))) ++ pskHead a.identity := by
      unfold Spec.Tls.Offer.truncated
      rw [message_eq a Spec.Tls.zeros rfl hr hk (by omega)]
      dsimp only
      rw [List.length_append, show ([(0 : UInt8), 33, 32] ++ Spec.Tls.zeros).length = 2 + 1 + 32 from rfl, Nat.add_sub_cancel,
        List.take_left' rfl]
    refine ⟨_, _, _, lengths_run dbg a hh (by omega), fun _ => psk_ok _ (by omega), ?_, rfl, rfl, rfl, ?_⟩
    · rw [head_length a _ _ hr hk, pskHead_length]; omega
    · rw [ht, List.nil_append, List.nil_append, ← htr]
      rw [htr] at hm
      have hh' : a.offer.hello = a.offer.truncated ++ ([0, 33, 32] ++ Spec.Tls.binder a.psk a.offer.truncated) := by
        rw [← htr] at hm; exact hm
      rw [← hh']
      have hl : a.offer.hello.length = 4 + (43 + (137 + 45 + a.hostname.length + a.identity.length)) := by
        rw [hh', htr, List.length_append, List.length_append, head_length a _ _ hr hk, pskHead_length, List.length_append,
          show (Spec.Tls.binder a.psk _).length = 32 from hmac_length _ _]
        simp only [List.length_cons, List.length_nil]
        omega
      unfold Spec.Tls.Offer.record Spec.Tls.vec16
      rw [hl, toBe16_ofNat (by omega)]
      simp only [List.append_assoc]
      rfl
  · rename_i hf
    have hp := onlyPanic_ser dbg cap a ks
    cases hs : clientHelloSer dbg cap a ks with
    | error e => rw [hp e hs]
    | ok r =>
      exfalso
      obtain ⟨e, h, p, -, -, h3, -⟩ := (ser_iff hx dbg cap a ks r hr hk hh).mp hs
      rw [head_length a _ _ hr hk, pskHead_length] at h3
      omega

/-- The hypotheses hold for the arguments of a client with a 2 KiB buffer, host name "example.com" and a 32 byte identity. -/
example (dbg : Bool) (S P : Type) (dh : S → P → Bytes) (sec1 : Bytes → Option P) :
    ∃ ks, clientHelloSer dbg 2048
        { random := List.replicate 32 7, hostname := ascii "example.com", publicKey := List.replicate 65 4
          psk := List.replicate 32 9, identity := List.replicate 32 1, recordSizeLimit := 2026 }
        (KeySchedule.default (Crypto.standard S P dh sec1)) = .ok (Spec.Tls.Offer.record
          { random := List.replicate 32 7, host := ascii "example.com", publicKey := List.replicate 65 4
            psk := List.replicate 32 9, identity := List.replicate 32 1, limit := 2026 }, ks) := by
  rw [C57_client_hello (Crypto.standard_standard S P dh sec1) dbg 2048 _ _ (by decide) rfl rfl (by decide) rfl]
  rw [if_pos (by decide)]
  exact ⟨_, rfl⟩

end Verif.Tls
