import Verif.Proof.Call
import Verif.Proof.History
/-!
# What reader and writer programs do to the device
-/
namespace Verif
open Hl Spec

section
variable {σ α : Type} {b : Bus σ}

/-- A program on a UDP reader is the same program on the reader inside it. -/
theorem udpReader_run_any (prog : RProg α) (w : σ) (u : UdpReader) :
    prog.run (udpReaderOps b) (w, u) =
      ((prog.run (tcpReaderOps b) (w, u.inner)).1, ((prog.run (tcpReaderOps b) (w, u.inner)).2.1,
        { u with inner := (prog.run (tcpReaderOps b) (w, u.inner)).2.2 })) := by
  induction prog generalizing w u with
  | ret r => rfl
  | read n k ih =>
    simp only [RProg.run]
    have : (udpReaderOps b).read n (w, u) = (((tcpReaderOps b).read n (w, u.inner)).1,
      (((tcpReaderOps b).read n (w, u.inner)).2.1, { u with inner := ((tcpReaderOps b).read n (w, u.inner)).2.2 })) := rfl
    rw [this]
    exact ih _ _ _
  | readExact n k ih =>
    simp only [RProg.run]
    have : (udpReaderOps b).readExact n (w, u) = (((tcpReaderOps b).readExact n (w, u.inner)).1,
      (((tcpReaderOps b).readExact n (w, u.inner)).2.1, { u with inner := ((tcpReaderOps b).readExact n (w, u.inner)).2.2 })) := rfl
    rw [this]
    exact ih _ _ _
  | seek pos k ih =>
    simp only [RProg.run]
    have : (udpReaderOps b).seek pos (w, u) = (((tcpReaderOps b).seek pos (w, u.inner)).1,
      (((tcpReaderOps b).seek pos (w, u.inner)).2.1, { u with inner := ((tcpReaderOps b).seek pos (w, u.inner)).2.2 })) := rfl
    rw [this]
    exact ih _ _ _
  | rewind k ih =>
    simp only [RProg.run]
    exact ih _ _
  | streamLen k ih => exact ih _ _ _
  | streamPosition k ih => exact ih _ _ _
  | remain k ih => exact ih _ _ _

/-- A reader program only reads the receive buffer. -/
theorem rprog_rel {R : σ → σ → Prop} (refl : ∀ s, R s s) (trans : ∀ s t u, R s t → R t u → R s u)
    (hbuf : ∀ sn p n s, R s (b.snRxBuf sn p n s).2) (prog : RProg α) : ∀ s r, R s (prog.run (tcpReaderOps b) (s, r)).2.1 := by
  induction prog with
  | ret x => intro s r; exact refl s
  | read n k ih =>
    intro s r
    refine trans _ ((tcpReaderOps b).read n (s, r)).2.1 _ ?_ (ih _ _ _)
    simp only [tcpReaderOps, tcpReaderRead]
    by_cases hz : min16 r.remain (lenU16 n) ≠ 0
    · rw [if_pos hz, M.bind_run]
      have := hbuf r.sn r.ptr (min16 r.remain (lenU16 n)).toNat s
      rcases e : b.snRxBuf r.sn r.ptr (min16 r.remain (lenU16 n)).toNat s with ⟨_ | x, s'⟩ <;> rw [e] at this <;> exact this
    · rw [if_neg hz]; exact refl s
  | readExact n k ih =>
    intro s r
    refine trans _ ((tcpReaderOps b).readExact n (s, r)).2.1 _ ?_ (ih _ _ _)
    simp only [tcpReaderOps, tcpReaderReadExact]
    by_cases hz : min16 r.remain (lenU16 n) ≠ lenU16 n
    · rw [if_pos hz]; exact refl s
    · rw [if_neg hz, M.bind_run]
      have := hbuf r.sn r.ptr n s
      rcases e : b.snRxBuf r.sn r.ptr n s with ⟨_ | x, s'⟩ <;> rw [e] at this <;> exact this
  | seek pos k ih =>
    intro s r
    refine trans _ ((tcpReaderOps b).seek pos (s, r)).2.1 _ ?_ (ih _ _ _)
    simp only [tcpReaderOps]
    split <;> exact refl s
  | rewind k ih => intro s r; exact ih s r.rewind
  | streamLen k ih => intro s r; exact ih _ s r
  | streamPosition k ih => intro s r; exact ih _ s r
  | remain k ih => intro s r; exact ih _ s r

theorem onUdpReader_rel {R : σ → σ → Prop} (refl : ∀ s, R s s) (trans : ∀ s t u, R s t → R t u → R s u)
    (hbuf : ∀ sn p n s, R s (b.snRxBuf sn p n s).2) (u : UdpReader) (prog : RProg α) (s : σ) :
    R s (onUdpReader b u prog s).2 ∧ ∀ a u', (onUdpReader b u prog s).1 = .ok (a, u') → u'.inner.sn = u.inner.sn ∧ u'.header = u.header := by
  have h := rprog_rel refl trans hbuf prog s u.inner
  have hsn := prog_sn (b := b) prog s u.inner
  unfold onUdpReader
  rw [udpReader_run_any]
  rcases e : prog.run (tcpReaderOps b) (s, u.inner) with ⟨_ | a, s', r'⟩
  · rw [e] at h; exact ⟨h, fun _ _ h => nomatch h⟩
  · rw [e] at h hsn
    refine ⟨h, fun a u' h => ?_⟩
    injection h with h
    injection h with h1 h2
    rw [← h2]
    exact ⟨hsn, rfl⟩

theorem onTcpReader_rel {R : σ → σ → Prop} (refl : ∀ s, R s s) (trans : ∀ s t u, R s t → R t u → R s u)
    (hbuf : ∀ sn p n s, R s (b.snRxBuf sn p n s).2) (r : Ptrs) (prog : RProg α) (s : σ) :
    R s (onTcpReader b r prog s).2 ∧ ∀ a r', (onTcpReader b r prog s).1 = .ok (a, r') → r'.sn = r.sn := by
  have h := rprog_rel refl trans hbuf prog s r
  have hsn := prog_sn (b := b) prog s r
  unfold onTcpReader
  rcases e : prog.run (tcpReaderOps b) (s, r) with ⟨_ | a, s', r'⟩
  · rw [e] at h; exact ⟨h, fun _ _ h => nomatch h⟩
  · rw [e] at h hsn
    refine ⟨h, fun a u' h => ?_⟩
    injection h with h
    injection h with h1 h2
    rw [← h2]
    exact hsn

/-- A writer program only writes the transmit buffer. -/
theorem wprog_rel {R : σ → σ → Prop} (refl : ∀ s, R s s) (trans : ∀ s t u, R s t → R t u → R s u) {sn : Sn}
    (hbuf : ∀ p x s, R s (b.setSnTxBuf sn p x s).2) (prog : WProg α) :
    ∀ s r, r.sn = sn → R s (prog.run (writerOps b) (s, r)).2.1 := by
  have hseek : ∀ (r : Ptrs) (pos : SeekFrom) (s : σ), r.sn = sn → ((writerOps b).seek pos (s, r)).2.2.sn = sn := by
    intro r pos s hr
    simp only [writerOps, Ptrs.seek]
    split
    · rename_i e
      split at e
      · simp at e
      · injection e with e; rw [← e]; exact hr
    · exact hr
  induction prog with
  | ret x => intro s r _; exact refl s
  | write bs k ih =>
    intro s r hr
    refine trans _ ((writerOps b).write bs (s, r)).2.1 _ ?_ (ih _ _ _ ?_)
    · simp only [writerOps, writerWrite]
      by_cases hz : min16 r.remain (lenU16 bs.length) ≠ 0
      · rw [if_pos hz, M.bind_run]
        have := hbuf r.ptr (bs.take (min16 r.remain (lenU16 bs.length)).toNat) s
        rw [← hr] at this
        rcases e : b.setSnTxBuf r.sn r.ptr (bs.take (min16 r.remain (lenU16 bs.length)).toNat) s with ⟨_ | x, s'⟩ <;> rw [e] at this <;> exact this
      · rw [if_neg hz]; exact refl s
    · simp only [writerOps, writerWrite]
      by_cases hz : min16 r.remain (lenU16 bs.length) ≠ 0
      · rw [if_pos hz, M.bind_run]
        rcases e : b.setSnTxBuf r.sn r.ptr (bs.take (min16 r.remain (lenU16 bs.length)).toNat) s with ⟨_ | x, s'⟩ <;> exact hr
      · rw [if_neg hz]; exact hr
  | writeAll bs k ih =>
    intro s r hr
    refine trans _ ((writerOps b).writeAll bs (s, r)).2.1 _ ?_ (ih _ _ _ ?_)
    · simp only [writerOps, writerWriteAll]
      by_cases hz : min16 r.remain (lenU16 bs.length) ≠ lenU16 bs.length
      · rw [if_pos hz]; exact refl s
      · rw [if_neg hz, M.bind_run]
        have := hbuf r.ptr bs s
        rw [← hr] at this
        rcases e : b.setSnTxBuf r.sn r.ptr bs s with ⟨_ | x, s'⟩ <;> rw [e] at this <;> exact this
    · simp only [writerOps, writerWriteAll]
      by_cases hz : min16 r.remain (lenU16 bs.length) ≠ lenU16 bs.length
      · rw [if_pos hz]; exact hr
      · rw [if_neg hz, M.bind_run]
        rcases e : b.setSnTxBuf r.sn r.ptr bs s with ⟨_ | x, s'⟩ <;> exact hr
  | seek pos k ih =>
    intro s r hr
    refine trans _ ((writerOps b).seek pos (s, r)).2.1 _ ?_ (ih _ _ _ (hseek r pos s hr))
    simp only [writerOps]
    split <;> exact refl s
  | rewind k ih => intro s r hr; exact ih s r.rewind hr
  | streamLen k ih => intro s r hr; exact ih _ s r hr
  | streamPosition k ih => intro s r hr; exact ih _ s r hr
  | remain k ih => intro s r hr; exact ih _ s r hr

theorem onWriter_rel {R : σ → σ → Prop} (refl : ∀ s, R s s) (trans : ∀ s t u, R s t → R t u → R s u) {sn : Sn}
    (hbuf : ∀ p x s, R s (b.setSnTxBuf sn p x s).2) (r : Ptrs) (hr : r.sn = sn) (prog : WProg α) (s : σ) :
    R s (onWriter b r prog s).2 ∧ ∀ a r', (onWriter b r prog s).1 = .ok (a, r') → r'.sn = sn := by
  have h := wprog_rel refl trans hbuf prog s r hr
  have hsn := wprog_sn (b := b) prog s r
  unfold onWriter
  rcases e : prog.run (writerOps b) (s, r) with ⟨_ | a, s', r'⟩
  · rw [e] at h; exact ⟨h, fun _ _ h => nomatch h⟩
  · rw [e] at h hsn
    refine ⟨h, fun a u' h => ?_⟩
    injection h with h
    injection h with h1 h2
    rw [← h2]
    exact hsn.trans hr

end
end Verif
