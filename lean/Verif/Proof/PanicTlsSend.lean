import Verif.Proof.PanicTlsClient
import Verif.Proof.PanicMqtt
import Verif.Model.MqttTls
/-!
# Panics when sending application data with the writer of the TLS client
-/
namespace Verif.Tls
open Verif Hl
open _root_.Verif.Spec (Device)

variable {σ τ S : Type} {x : Crypto} {α β : Type}

/-- A failure that is no panic, and that is taken by the conversion of errors of the MQTT client. -/
def Soft (f : Fail Err) : Prop :=
  f ≠ .stop .panic ∧ f ≠ .noKey ∧ MqttTls.mapW5500 f ≠ .stop .panic ∧ MqttTls.mapW5500 f ≠ .noKey

theorem Soft.ofErr {e : Err} (h : Fine e) : Soft (X.ofErr e) := by
  cases e <;> first | exact absurd rfl h.1 | exact absurd rfl h.2 | exact ⟨by nofun, by nofun, by nofun, by nofun⟩

/-- All failures are soft, and the value satisfies `V`. -/
def NP (V : α → Prop) (m : X Err S α) : Prop := ∀ s, (∀ f, (m s).1 = .error f → Soft f) ∧ ∀ a, (m s).1 = .ok a → V a

namespace NP

theorem pure {V : α → Prop} {a : α} (h : V a) : NP V (Pure.pure a : X Err S α) :=
  fun _ => ⟨(fun _ h => nomatch h), fun _ e => by injection e with e; rw [← e]; exact h⟩

theorem bind {V : α → Prop} {V' : β → Prop} {m : X Err S α} {f : α → X Err S β} (hm : NP V m) (hf : ∀ a, V a → NP V' (f a)) :
    NP V' (m >>= f) := by
  intro s
  have := hm s
  rw [X.bind_run]
  rcases h : m s with ⟨e | a, s'⟩ <;> rw [h] at this
  · exact ⟨fun f hf => this.1 f (by injection hf with hf; rw [hf]), (fun _ h => nomatch h)⟩
  · exact hf a (this.2 a rfl) s'

theorem ofM {V : α → Prop} {m : M σ α} (h : FineM V m) : NP V (X.ofM m) := by
  intro s
  have := h s
  unfold X.ofM
  rcases hm : m s with ⟨e | a, s'⟩ <;> rw [hm] at this
  · exact ⟨fun f hf => by injection hf with hf; rw [← hf]; exact Soft.ofErr (this.1 e rfl), (fun _ h => nomatch h)⟩
  · exact ⟨(fun _ h => nomatch h), fun a' ha => by injection ha with ha; rw [← ha]; exact this.2 a rfl⟩

theorem ok {V : α → Prop} {r : Except Err α} {a : α} (h : r = .ok a) (hv : V a) : NP V (ofCipher r : X Err S α) := by
  rw [h]; exact pure hv

theorem onFst {V : α → Prop} {m : X Err σ α} (h : NP V m) : NP V (m.onFst : X Err (σ × τ) α) := fun s => h s.1

end NP

theorem fine_snTxBuf {b : Bus σ} (hb : Device b) (sn : Sn) (p : UInt16) (n : Nat) : Ok (b.snTxBuf sn p n) := by
  have := fine_read hb; unfold Bus.snTxBuf; fine_tac

theorem fine_snTxFsr {b : Bus σ} (hb : Device b) (sn : Sn) : Ok (b.snTxFsr sn) := by
  have := fine_read hb; unfold Bus.snTxFsr; fine_tac

theorem fine_snTxWr {b : Bus σ} (hb : Device b) (sn : Sn) : Ok (b.snTxWr sn) := by
  have := fine_read hb; unfold Bus.snTxWr; fine_tac

theorem np_encryptBlocks {b : Bus σ} (hb : Device b) (sn : Sn) (k : Nat) : ∀ g head i, GC g i → i + k < 65534 →
    NP (fun v => GC v.1 (i + k)) (encryptBlocksInplace b sn k g head) := by
  induction k with
  | zero => intro g head i h _; exact NP.pure h
  | succ k ih =>
    intro g head i h hi
    unfold encryptBlocksInplace
    refine (NP.ofM (fine_snTxBuf hb _ _ _)).bind fun bytes _ => ?_
    obtain ⟨o, g', e, hg⟩ := h.encrypt (by omega) (toBlock bytes)
    refine NP.bind (V := fun v => v = (o, g')) (NP.ok e rfl) fun v hv => ?_
    subst hv
    refine (NP.ofM (fine_setSnTxBuf hb _ _ _)).bind fun _ _ => ?_
    have := ih g' (head + 16) (i + 1) hg (by omega)
    rw [show i + 1 + k = i + (k + 1) by omega] at this
    exact this

theorem np_encryptRecord {b : Bus σ} (hb : Device b) (sn : Sn) (key nonce) (head tail : UInt16) (ct : ContentType) :
    NP (fun _ => True) (encryptRecordInplace b sn key nonce head tail ct) := by
  unfold encryptRecordInplace
  dsimp only
  have h1 : ((tail - head) / 16).toNat ≤ 4095 := by
    have := (tail - head).toNat_lt
    rw [UInt16.toNat_div]; show (tail - head).toNat / 16 ≤ 4095; omega
  have h2 : ((tail - head) % 16 + 1).toNat ≤ 16 := by
    have h : ((tail - head) % 16).toNat < 16 := by rw [UInt16.toNat_mod]; exact Nat.mod_lt _ (by decide)
    rw [UInt16.toNat_add]; show (((tail - head) % 16).toNat + 1) % 65536 ≤ 16; omega
  generalize (tail - head) / 16 = cnt at h1
  generalize (tail - head) % 16 = rem at h2
  generalize RecordHeader.ser .applicationData (tail + 17 - head) = header
  refine (NP.ofM (fine_setSnTxBuf hb _ _ _)).bind fun _ _ => ?_
  refine (np_encryptBlocks hb sn cnt.toNat (Aes128Gcm.new key nonce header) head 0 (GC.new _ _ _) (by omega)).bind fun v hv => ?_
  obtain ⟨g, head'⟩ := v
  refine (NP.ofM (fine_snTxBuf hb _ _ _)).bind fun bytes _ => ?_
  obtain ⟨o, g', e, -⟩ := GC.encryptRemainder hv (by omega) (toBlock (bytes.take rem.toNat ++ [ct.code])) h2
  refine NP.bind (V := fun _ => True) (NP.ok e trivial) fun v _ => ?_
  refine (NP.ofM (fine_setSnTxBuf hb _ _ _)).bind fun _ _ => (NP.ofM (fine_setSnTxBuf hb _ _ _)).bind fun _ _ =>
    (NP.ofM (fine_setSnTxWr hb _ _)).bind fun _ _ => NP.ofM (fine_setSnCr hb _ _)

/-- Sending a record, with a key and a sequence number that is not the last one. -/
theorem tlsSend_soft {b : Bus σ} (hb : Device b) (r : Ptrs) (s : σ) (c : Client x) (hk : ∃ kn, c.ks.clientKeyAndNonce = some kn)
    (hs : c.ks.writeSeq.toNat + 1 < 2 ^ 64) (f : Fail Err) (h : (tlsSend b r (s, c)).1 = .error f) : Soft f := by
  obtain ⟨kn, hk⟩ := hk
  have e : c.ks.incrementWriteSeq = .ok { c.ks with writeSeq := c.ks.writeSeq + 1 } := by
    unfold KeySchedule.incrementWriteSeq
    rw [if_pos hs]
  have key : NP (fun _ => True) (unwrapKey c.ks.clientKeyAndNonce >>= fun kn =>
      (encryptRecordInplace b r.sn kn.1 kn.2 r.head r.ptr .applicationData).onFst >>= fun _ =>
      ofCipher c.ks.incrementWriteSeq >>= fun ks => (X.modify fun s => (s.1, ks)) : X Err (σ × KeySchedule x) Unit) := by
    rw [hk]
    refine NP.bind (V := fun _ => True) (NP.pure trivial) fun kn _ => (np_encryptRecord hb _ _ _ _ _ _).onFst.bind fun _ _ =>
      NP.bind (V := fun _ => True) (NP.ok e trivial) fun ks _ => fun _ => ⟨(fun _ h => nomatch h), fun _ _ => trivial⟩
  exact (key (s, c.ks)).1 f h

/-- The failures of the writer. -/
def WFail {α : Type} (r : Except (Fail TErr) α) : Prop :=
  ∀ f, r = .error f → (∃ a, f = .err (.client a)) ∨ f = .err .notConnected ∨ f = .stop .hang

/-- The writer: a failure is an alert of the client, or that there is no connection. -/
theorem tlsWriter_fails {b : Bus σ} (hb : Device b) (s : σ) (c : Client x) (f : Fail TErr) (h : (tlsWriter b (s, c)).1 = .error f) :
    (∃ a, f = .err (.client a)) ∨ f = .err .notConnected ∨ f = .stop .hang := by
  have key : ∀ {α : Type} {m : M σ α}, Ok m → ∀ s f, (writeErr (X.ofM m) s).1 = .error f → (∃ a, f = .err (.client a)) ∨ f = .stop .hang := by
    intro α m hm s f h
    unfold writeErr X.mapErr X.ofM at h
    have := hm s
    rcases e : m s with ⟨e' | a, s'⟩ <;> rw [e] at h this
    · injection h with h
      subst h
      have := this.1 e' rfl
      cases e' <;> first | exact absurd rfl this.1 | exact .inr rfl | exact .inl ⟨_, rfl⟩
    · exact nomatch h
  have bindW : ∀ {α β : Type} {m : X TErr (σ × Client x) α} {g : α → X TErr (σ × Client x) β}, (∀ s, WFail (m s).1) → (∀ a s, WFail (g a s).1) →
      ∀ s, WFail ((m >>= g) s).1 := by
    intro α β m g hm hg s
    have := hm s
    rw [X.bind_run]
    rcases e0 : m s with ⟨e | a, s'⟩
    · intro f hf; injection hf with hf; exact this f (by rw [e0, hf])
    · exact hg a s'
  have busW : ∀ {α : Type} {m : M σ α}, Ok m → ∀ s, WFail ((writeErr (X.ofM m)).onFst (s : σ × Client x)).1 := by
    intro α m hm s f hf
    rcases key hm s.1 f hf with h | h
    · exact .inl h
    · exact .inr (.inr h)
  have pureW : ∀ {α : Type} (a : α) (s : σ × Client x), WFail ((pure a : X TErr (σ × Client x) α) s).1 := by
    intro α a s f h
    exact nomatch (show (Except.ok a : Except (Fail TErr) α) = .error f from h)
  refine (bindW (g := _) (m := getC) (fun s f h => nomatch h) (fun d s => ?_) (s, c)) f h
  split
  · refine bindW (busW (fine_snTxFsr hb d.sn)) (fun fsr s => ?_) s
    split
    · intro f h; injection h with h; exact .inl ⟨_, h.symm⟩
    · exact bindW (busW (fine_snTxWr hb d.sn)) (fun _ _ => pureW _ _) s
  · intro f h; injection h with h; exact .inr (.inl h.symm)

end Verif.Tls
