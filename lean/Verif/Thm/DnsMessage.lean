import Verif.Thm.DnsRecords
/-!
# C27, C30: a whole response, from the datagram to the records
-/
namespace Verif.Spec.Dns

/-- Message `m` has `k` questions (RFC 1035 section 4.1.2: a name, 2 bytes type, 2 bytes class) from offset `p` to offset `q`.  Their names
are reached in at most `steps` steps. -/
inductive QuestionsAt (m : Bytes) (steps : Nat) : Nat → Nat → Nat → Prop where
  | nil {p} : QuestionsAt m steps p 0 p
  | cons {p ls s n k q} : NameAt m p ls s n → n ≤ steps → s + 4 ≤ m.length → QuestionsAt m steps (s + 4) k q →
      QuestionsAt m steps p (k + 1) q

/-- Message `m` has from offset `p` the resource records `rs` (section 4.1.3: a name, 2 bytes type, 2 bytes class, 4 bytes TTL, 2 bytes length of
the data, the data), each given by the labels of its name and the offset after the name.  There is at least the data that
an A or SRV record needs. -/
inductive RecordsAt (m : Bytes) (steps : Nat) : Nat → List (List Bytes × Nat) → Prop where
  | nil {p} : RecordsAt m steps p []
  | cons {p ls s n rs} : NameAt m p ls s n → n ≤ steps → s + 10 + word m (s + 8) ≤ m.length →
      (word m s = 1 → 4 ≤ word m (s + 8)) → (word m s = 33 → 6 ≤ word m (s + 8)) →
      RecordsAt m steps (s + 10 + word m (s + 8)) rs → RecordsAt m steps p ((ls, s) :: rs)

end Verif.Spec.Dns

namespace Verif.Thm
open Verif Hl Spec Dns Spec.Dns

/-- C27: well-formed questions are skipped, to the byte. -/
theorem C27_questions_skipped (m : Bytes) (fuel p k q : Nat) (hm : m.length < 65535) (h : QuestionsAt m fuel p k q) :
    (skipQuestions fuel k).run cursorOps ⟨m, p⟩ = (.ok (), ⟨m, q⟩) := by
  induction h with
  | nil => rfl
  | @cons p ls s n k q h1 h2 h3 h4 ih =>
    unfold skipQuestions
    rw [RProg.bind_ok (C28_read_name m p ls s n h1 (by omega) (by omega) 0 fuel h2),
      RProg.bind_ok (cur_seekCurrent (o := 4) (q := s + 4) (by show (s : Int) + 4 = _; omega) h3)]
    exact ih

/-- What the caller is told about the record with the name `ls` whose other fields start at offset `s`. -/
structure Shows (m : Bytes) (cap : Nat) (ls : List Bytes) (s : Nat) (rr : ResourceRecord) : Prop where
  name : rr.name = (if ([46].intercalate ls).length ≤ cap ∧ utf8Valid ([46].intercalate ls) = true
        then some ([46].intercalate ls) else none)
  type : rr.qtype = Qtype.tryFrom (UInt16.ofNat (word m s))
  cls : rr.class_ = Qclass.tryFrom (UInt16.ofNat (word m (s + 2)))
  ttl : rr.ttl.toNat = long m (s + 4)
  data : DataAt m (s + 10) (word m s) rr.rdata

theorem results_of_records (m : Bytes) (fuel cap : Nat) (hm : m.length < 65535) (p : Nat) (rs : List (List Bytes × Nat))
    (h : RecordsAt m fuel p rs) (n : Nat) :
    (recordResults fuel cap cursorOps rs.length n ⟨m, p⟩).length = n ∧
    ∀ i, i < n →
      (∀ ls s, rs[i]? = some (ls, s) → ∃ rr, (recordResults fuel cap cursorOps rs.length n ⟨m, p⟩)[i]? = some (.ok (some rr)) ∧ Shows m cap ls s rr) ∧
      (rs.length ≤ i → (recordResults fuel cap cursorOps rs.length n ⟨m, p⟩)[i]? = some (.ok none)) := by
  induction n generalizing p rs with
  | zero => exact ⟨by cases rs <;> rfl, fun i hi => absurd hi (by omega)⟩
  | succ n ih =>
    cases h with
    | nil =>
      obtain ⟨h1, h2⟩ := ih p [] .nil
      have e : recordResults fuel cap cursorOps ([] : List (List Bytes × Nat)).length (n + 1) ⟨m, p⟩ =
          .ok none :: recordResults fuel cap cursorOps ([] : List (List Bytes × Nat)).length n ⟨m, p⟩ := rfl
      rw [e]
      refine ⟨by rw [List.length_cons, h1], fun i hi => ⟨fun ls s hs => absurd hs (by simp), fun _ => ?_⟩⟩
      cases i with
      | zero => rfl
      | succ i => exact (h2 i (by omega)).2 (Nat.zero_le _)
    | @cons _ ls s k rs g1 g2 g3 g4 g5 g6 =>
      obtain ⟨rr, r1, r2, r3, r4, r5, r6⟩ := C30_valid_record m p ls s k g1 hm cap fuel g2 g3 (by
        unfold needed
        by_cases e1 : word m s = 1
        · rw [if_pos e1]; exact g4 e1
        · rw [if_neg e1]
          by_cases e2 : word m s = 33
          · rw [if_pos e2]; exact g5 e2
          · rw [if_neg e2]; omega)
      obtain ⟨h1, h2⟩ := ih _ rs g6
      have e : recordResults fuel cap cursorOps ((ls, s) :: rs).length (n + 1) ⟨m, p⟩ =
          .ok (some rr) :: recordResults fuel cap cursorOps rs.length n ⟨m, s + 10 + word m (s + 8)⟩ := by
        show ((readRr fuel cap).run cursorOps ⟨m, p⟩).1.map some :: recordResults fuel cap cursorOps rs.length n ((readRr fuel cap).run cursorOps ⟨m, p⟩).2 = _
        rw [r1]; rfl
      rw [e]
      refine ⟨by rw [List.length_cons, h1], fun i hi => ?_⟩
      cases i with
      | zero =>
        refine ⟨fun ls' s' hs => ⟨rr, rfl, ?_⟩, fun h => absurd h (by simp)⟩
        simp only [List.getElem?_cons_zero, Option.some.injEq, Prod.mk.injEq] at hs
        obtain ⟨rfl, rfl⟩ := hs
        exact ⟨r2, r3, r4, r5, r6⟩
      | succ i =>
        obtain ⟨k1, k2⟩ := h2 i (by omega)
        refine ⟨fun ls' s' hs => k1 ls' s' (by simpa using hs), fun h => k2 (by simp at h; omega)⟩

/-- C30: the next datagram is a well-formed response with the identifier asked for.  Then `response` succeeds, and `next_rr` returns its records
one after the other, each with its name, type, class, TTL and data, and after them that there are no more. -/
theorem C30_well_formed_response (dbg : Bool) (fuel : Nat) (sn : Sn) (cap : Nat) (id : Option UInt16) (p : Nat) (w w1 : World)
    (u : UdpReader) (g : Datagram) (rest : Bytes) (q : Nat) (rs : List (List Bytes × Nat)) (h : RxState w.chip sn.toU8.toNat p)
    (hg : g.payload.length < 65535) (hq : w.chip.unread sn.toU8.toNat = udpFrame g.src g.payload ++ rest)
    (hu : udpReader dbg worldBus sn w = (.ok u, w1)) (hr : IsResponse id g.payload)
    (hqs : QuestionsAt g.payload fuel 12 (word g.payload 4) q) (hrs : RecordsAt g.payload fuel q rs)
    (hn : rs.length = min (word g.payload 6 + word g.payload 8 + word g.payload 10) 65535) :
    ∃ r w2, response dbg fuel worldBus sn cap id w = (.ok r, w2) ∧ ∀ n, (nextResults fuel worldBus n (w2, r)).length = n ∧
      ∀ i, i < n →
        (∀ ls s, rs[i]? = some (ls, s) →
          ∃ rr, (nextResults fuel worldBus n (w2, r))[i]? = some (.ok (some rr)) ∧ Shows g.payload cap ls s rr) ∧
        (rs.length ≤ i → (nextResults fuel worldBus n (w2, r))[i]? = some (.ok none)) := by
  have hsk := C27_questions_skipped g.payload fuel 12 _ q hg hqs
  obtain ⟨-, k2⟩ := C27_response dbg fuel sn cap id p w w1 u g rest h (by omega) hq hu hr
  obtain ⟨r, w2, h1, -⟩ := k2 (by rw [hsk])
  refine ⟨r, w2, h1, fun n => ?_⟩
  obtain ⟨q', e1, e2⟩ := C30_records_of_datagram dbg fuel sn cap id p w w2 r g rest h (by omega) hq h1 n
  rw [hsk] at e1
  injection e1 with _ e1
  injection e1 with _ e1
  subst e1
  rw [e2, ← hn]
  exact results_of_records g.payload fuel cap hg q rs hrs n

/-- A response to a question for the A record of `a`, with one answer 10.0.0.1 whose name points to the question. -/
def sampleResponse : Bytes :=
  [0, 7, 0x80, 0, 0, 1, 0, 1, 0, 0, 0, 0, 1, 97, 0, 0, 1, 0, 1, 0xC0, 12, 0, 1, 0, 1, 0, 0, 0, 60, 0, 4, 10, 0, 0, 1]

example : IsResponse (some 7) sampleResponse ∧ QuestionsAt sampleResponse 3 12 (word sampleResponse 4) 19 ∧
    RecordsAt sampleResponse 3 19 [([[97]], 21)] ∧ word sampleResponse 6 + word sampleResponse 8 + word sampleResponse 10 = 1 := by
  have n12 : NameAt sampleResponse 12 [[97]] 15 2 := .label (b := 1) rfl (by decide) (by decide) (by decide) (.root rfl)
  refine ⟨by unfold IsResponse; decide, .cons n12 (by decide) (by decide) .nil, ?_, by decide⟩
  exact .cons (.pointer (a := 0xC0) (b := 12) rfl (by decide) rfl n12) (by decide) (by decide) (by decide) (by decide) .nil

end Verif.Thm
