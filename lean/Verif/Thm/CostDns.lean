import Verif.Thm.CostClients
import Verif.Model.Dns
/-!
# C130: the number of accesses of a DNS query depends only on the labels of its names

`accesses`, `notStatus`, `inDebug` and `questionWrites` are in `Spec/Cost.lean`.
-/
namespace Verif.Thm
open Hl Dns
open _root_.Verif.Spec (Access traceBus accesses notStatus inDebug questionWrites)

theorem splitDot_length : ∀ s : Bytes, (splitDot s).length = s.count 46 + 1
  | [] => rfl
  | x :: xs => by
    have ih := splitDot_length xs
    unfold splitDot
    by_cases h : x = 46
    · subst h
      rw [if_pos (by rfl), List.count_cons_self, List.length_cons, ih]
    · rw [if_neg (by simpa using h), List.count_cons_of_ne h]
      split
      next e => rw [e] at ih; exact nomatch ih
      next e => rw [e] at ih; exact ih

theorem WC.doSeek (x : SeekFrom) : WC (WProg.doSeek x) 0 := fun _ => trivial
theorem WC.doRewind : WC WProg.doRewind 0 := trivial
theorem WC.doStreamPosition : WC WProg.doStreamPosition 0 := fun _ => trivial
theorem WC.doRemain : WC WProg.doRemain 0 := fun _ => trivial

theorem wc_labels : ∀ ls : List Bytes, WC (writeLabels ls) (2 * ls.length)
  | [] => .ret _
  | l :: ls => .mono _ (WC.bind (n := 1) (k := 1 + 2 * ls.length) (fun _ => .bind (n := 1) (fun _ => wc_labels ls) _ (.doWriteAll _)) _ (.doWriteAll _))
      (by rw [List.length_cons]; omega)

theorem wc_question (h : Header) (t : Qtype) (s : Bytes) : WC (question h t s) (2 * (s.count 46 + 1) + 1) := by
  refine .mono _ (WC.bind (n := 0) (k := 2 * (s.count 46 + 1) + 1) (fun _ => ?_) _ .doRemain) (by omega)
  split
  · exact trivial
  · exact WC.bind (k := 1) (fun _ => .bind (n := 1) (k := 0) (fun _ => .ret _) _ (.doWriteAll _)) _ (splitDot_length s ▸ wc_labels (splitDot s))

theorem wc_questions : ∀ (h : Header) (qs : List (Qtype × Bytes)), WC (questions h qs) (questionWrites qs)
  | _, [] => .ret _
  | h, (t, s) :: qs => WC.bind (k := questionWrites qs) (fun h => wc_questions h qs) _ (wc_question h t s)

theorem wc_placeHeader (h : Header) : WC (placeHeader h) 1 :=
  .bind (n := 0) (k := 1) (fun _ => .bind (n := 0) (k := 1) (fun _ => .bind (n := 1) (k := 0) (fun _ => .doSeek _) _ (.doWriteAll _)) _ .doRewind) _
    .doStreamPosition

theorem wc_queryProg (id : UInt16) (qs : List (Qtype × Bytes)) : WC (queryProg id qs) (questionWrites qs + 1) := by
  refine .mono _ (WC.bind (n := 0) (fun _ => .bind (k := 1) (fun h => ?_) _ (wc_questions _ qs)) _ (.doSeek _)) (by omega)
  split
  · exact .ret _
  · exact .bind (n := 1) (k := 0) (fun _ => .ret _) _ (wc_placeHeader _)

section
variable {σ : Type} {b : Bus σ}

theorem cost_sendQuery {p : Access → Bool} (r : Ptrs) (h : Header) : Cost p 2 (sendQuery (traceBus b) r h) := by
  unfold sendQuery
  split
  · exact .mono (n := 0) (.pure _) (by decide)
  · exact .bind (n := 2) (k := 0) (cost_writerSend _) fun _ => .pure _

/-- **C130** A query with all its questions: nine accesses (fourteen more in a debug build, to compare the port with those of the other sockets) and the
writes of the questions.  Multicast DNS: eleven and the writes of the questions.  Reads of the status while the socket is opened do not count. -/
theorem C130_dns (b : Bus σ) (dbg : Bool) (fuel : Nat) (c : Dns.Client) (m : MdnsClient) (qs : List (Qtype × Bytes)) (r : Response) (s : σ) :
    ((accesses (query dbg fuel (traceBus b) c qs) s).filter (notStatus c.sn)).length ≤ 9 + questionWrites qs + inDebug dbg 14 ∧
    ((accesses (mdnsQuery fuel (traceBus b) m qs) s).filter (notStatus m.sn)).length ≤ 11 + questionWrites qs ∧
    (accesses (responseDone (traceBus b) r) s).length ≤ 2 := by
  refine ⟨Cost.others ?_ s, Cost.others ?_ s, Cost.accesses (cost_udpReaderDone _) s⟩
  · refine .mono (n := (4 + inDebug dbg 14) + (1 + (1 + ((questionWrites qs + 1) + (2 + 0))))) ?_ (by omega)
    exact .bind (cost_udpBind _ _ _ _ (status_not _)) fun _ => .bind (cost_setSnDest _) fun _ => .bind (cost_socketWriter _) fun _ =>
      .bind (cost_onWriter _ (wc_queryProg _ _)) fun _ => .bind (cost_sendQuery _ _) fun _ => .pure _
  · refine .mono (n := 1 + (1 + (1 + (0 + (1 + (1 + (1 + (0 + (1 + (1 + ((questionWrites qs + 1) + (2 + 0)))))))))))) ?_ (by omega)
    exact .bind (by unfold Bus.setSnDhar; exact .write _ _ _) fun _ => .bind (by unfold Bus.setSnTtl; exact .write _ _ _) fun _ =>
      .bind (cost_setSnCr _) fun _ => .bind (cost_waitStatus _ (status_not _) _) fun _ => .bind (cost_setSnPort _) fun _ =>
      .bind (cost_setSnMr _) fun _ => .bind (cost_setSnCr _) fun _ => .bind (cost_waitStatus _ (status_not _) _) fun _ =>
      .bind (cost_setSnDest _) fun _ => .bind (cost_socketWriter _) fun _ => .bind (cost_onWriter _ (wc_queryProg _ _)) fun _ =>
      .bind (cost_sendQuery _ _) fun _ => .pure _
end

/-! ## The numbers are reached -/

/-- A chip where the socket opens at once: status 0 first, then 0x22. -/
def openingBus : Bus Bool where
  read _ _ n := fun s => (.ok (Vector.replicate n (if s then 0x22 else 0)), true)
  write _ _ _ := fun s => (.ok (), s)

/-- `a.bc`: nine accesses, or eleven, and the five writes of the question. -/
example : questionWrites [(Qtype.A, [0x61, 46, 0x62, 0x63])] = 5 ∧
    ((accesses (query false 3 (traceBus openingBus) (Dns.Client.new .sn2 45000 ⟨10, 0, 0, 1⟩ 1) [(.A, [0x61, 46, 0x62, 0x63])]) false).filter (notStatus .sn2)).length = 14 ∧
    ((accesses (mdnsQuery 3 (traceBus openingBus) (MdnsClient.new .sn2 none) [(.A, [0x61, 46, 0x62, 0x63])]) false).filter (notStatus .sn2)).length = 16 := by
  decide +kernel

end Verif.Thm
