import Verif.Spec.DnsSession
import Verif.Proof.UdpQueue
import Verif.Thm.DnsMessage
import Verif.Thm.DnsQuery
import Verif.Thm.SntpSession
/-!
# C113, C114: DNS lookups over many attempts
-/
namespace Verif.Thm
open Verif Hl Spec Dns Spec.Dns Verif.Spec.DnsSession

/-- The questions of message `m` can be read. -/
def Readable (fuel : Nat) (m : Bytes) : Prop := ∃ q, QuestionsAt m fuel 12 (Spec.Dns.word m 4) q

/-- What the application sees is message `m`: its header, and, if the message is well-formed, its records in order, then that there are
no more. -/
inductive AnswerOf (fuel : Nat) (m : Bytes) : Seen → Prop
  | mk (cap count : Nat) (header : Dns.Header) (rrs : List (Except Err (Option ResourceRecord)))
      (hh : header.asBytes = m.take 12)
      (hl : rrs.length = count)
      (hr : ∀ q rs, QuestionsAt m fuel 12 (Spec.Dns.word m 4) q → RecordsAt m fuel q rs →
        rs.length = min (Spec.Dns.word m 6 + Spec.Dns.word m 8 + Spec.Dns.word m 10) 65535 → ∀ i, i < count →
          (∀ ls s, rs[i]? = some (ls, s) → ∃ rr, rrs[i]? = some (.ok (some rr)) ∧ Shows m cap ls s rr) ∧
          (rs.length ≤ i → rrs[i]? = some (.ok none))) :
      AnswerOf fuel m (.answer cap count header rrs)

theorem nexts_run (fuel : Nat) : ∀ (k : Nat) (w : World) (r : Response) (sn : Sn) (d : Bytes) (pos base p : Nat),
    UR w r.reader sn d pos base p →
    ∃ w' r' pos', nexts fuel k (w, r) = (nextResults fuel worldBus k (w, r), w', r') ∧ Later w w' ∧ UR w' r'.reader sn d pos' base p := by
  intro k
  induction k with
  | zero => intro w r sn d pos base p h; exact ⟨w, r, pos, rfl, .refl w, h⟩
  | succ k ih =>
    intro w r sn d pos base p h
    by_cases he : rrCount r.header ≤ r.rrIdx
    · have e := nextRr_end (fuel := fuel) (b := worldBus) (s := w) he
      obtain ⟨w', r', pos', h1, h2, h3⟩ := ih w r sn d pos base p h
      refine ⟨w', r', pos', ?_, h2, h3⟩
      rw [nexts, nextResults, e, h1]
    · have e := nextRr_go (fuel := fuel) (b := worldBus) (s := w) he
      have hd := prog_cursor_data (readRr fuel r.cap) ⟨d, pos⟩
      have hc : (attempt (readRr fuel r.cap)).run cursorOps ⟨d, pos⟩ =
          (.ok ((readRr fuel r.cap).run cursorOps ⟨d, pos⟩).1, ⟨d, ((readRr fuel r.cap).run cursorOps ⟨d, pos⟩).2.pos⟩) := by
        rw [run_attempt infallible_cursor]
        congr 1
        generalize ((readRr fuel r.cap).run cursorOps ⟨d, pos⟩).2 = c at *
        cases c; cases hd; rfl
      obtain ⟨w1, u1, k1, k2, k3⟩ := h.run_ok hc
      unfold onUdpReader at k1
      rw [run_attempt (infallible_udp _)] at k1
      rcases hx : (readRr fuel r.cap).run (udpReaderOps worldBus) (w, r.reader) with ⟨x, w2, u2⟩
      rw [hx] at k1 e
      dsimp only at k1 e
      injection k1 with k4 k5
      injection k4 with k4
      injection k4 with k4 k6
      subst k5; subst k6
      obtain ⟨w', r', pos', h1, h2, h3⟩ := ih w2 { r with reader := u2, rrIdx := satAdd16 r.rrIdx 1 } sn d _ base p k3
      refine ⟨w', r', pos', ?_, k2.trans h2, h3⟩
      rw [nexts, nextResults, e]
      dsimp only
      rw [h1]

theorem results_cursor {w : World} {r : Response} {sn : Sn} {d : Bytes} {pos base p : Nat} (h : UR w r.reader sn d pos base p) (fuel n : Nat) :
    nextResults fuel worldBus n (w, r) = recordResults fuel r.cap cursorOps ((rrCount r.header).toNat - r.rrIdx.toNat) n ⟨d, pos⟩ := by
  rw [nextResults_eq]
  generalize (rrCount r.header).toNat - r.rrIdx.toNat = k
  have h1 := run_recordsProg fuel r.cap infallible_cursor k n (⟨d, pos⟩ : Cursor)
  have hd := prog_cursor_data (recordsProg fuel r.cap k n) ⟨d, pos⟩
  rcases hx : (recordsProg fuel r.cap k n).run cursorOps ⟨d, pos⟩ with ⟨x, c⟩
  rw [hx] at h1 hd
  dsimp only at h1 hd
  have hc : c = ⟨d, c.pos⟩ := by cases c; cases hd; rfl
  rw [h1, hc] at hx
  obtain ⟨w1, u1, k1, -, -⟩ := h.run_ok hx
  have h2 := run_recordsProg fuel r.cap (infallible_udp worldBus) k n (w, r.reader)
  unfold onUdpReader at k1
  rcases hy : (recordsProg fuel r.cap k n).run (udpReaderOps worldBus) (w, r.reader) with ⟨y, w2, u2⟩
  rw [hy] at h2 k1
  dsimp only at h2
  rw [h2] at k1
  injection k1 with k1 _
  injection k1 with k1
  injection k1

/-- `response` with a datagram there. -/
theorem response_run {fuel : Nat} {sn : Sn} {cap : Nat} {id : Option UInt16} {w w1 : World} {u : UdpReader} {g : Datagram} {base p : Nat}
    (hu : udpReader false worldBus sn w = (.ok u, w1)) (h : UR w1 u sn g.payload 0 base p) :
    (¬ IsResponse id g.payload ∧ ∃ w2, response false fuel worldBus sn cap id w = (.error .wouldBlock, w2) ∧
      RxAt w2.chip sn.idx base (p + (8 + g.payload.length)) ∧ w1.chip.received sn.idx <+: w2.chip.received sn.idx ∧ TxCalm sn.idx w1 w2) ∨
    (IsResponse id g.payload ∧ ∃ e c w2, response false fuel worldBus sn cap id w = (.error e, w2) ∧ Later w1 w2 ∧
      (skipQuestions fuel (Spec.Dns.word g.payload 4)).run cursorOps ⟨g.payload, 12⟩ = (.error e, c)) ∨
    (IsResponse id g.payload ∧ ∃ r w2 q, response false fuel worldBus sn cap id w = (.ok r, w2) ∧ Later w1 w2 ∧
      UR w2 r.reader sn g.payload q base p ∧ r.header.asBytes = g.payload.take 12 ∧ r.cap = cap ∧ r.rrIdx = 0 ∧
      (skipQuestions fuel (Spec.Dns.word g.payload 4)).run cursorOps ⟨g.payload, 12⟩ = (.ok (), ⟨g.payload, q⟩)) := by
  by_cases hr : IsResponse id g.payload
  · right
    obtain ⟨hd, hd1, hd2⟩ := run_responseProg fuel id g.payload hr
    have hdat := prog_cursor_data (skipQuestions fuel (Spec.Dns.word g.payload 4)) ⟨g.payload, 12⟩
    rcases hs : (skipQuestions fuel (Spec.Dns.word g.payload 4)).run cursorOps ⟨g.payload, 12⟩ with ⟨er | un, c⟩ <;> rw [hs] at hdat
    · left
      have hx : (responseProg fuel id).run cursorOps ⟨g.payload, 0⟩ = (.error er, c) := by rw [hd2, RProg.bind_error hs]
      obtain ⟨w2, k1, k2⟩ := h.run_error hx
      refine ⟨hr, er, c, w2, ?_, k2, rfl⟩
      unfold response
      rw [M.bind_ok hu, M.bind_error k1]
    · right
      dsimp only at hdat
      have hc : c = ⟨g.payload, c.pos⟩ := by cases c; cases hdat; rfl
      have hx : (responseProg fuel id).run cursorOps ⟨g.payload, 0⟩ = (.ok (some hd), ⟨g.payload, c.pos⟩) := by
        rw [hd2, RProg.bind_ok hs, ← hc]; rfl
      obtain ⟨w2, u2, k1, k2, k3⟩ := h.run_ok hx
      refine ⟨hr, ⟨u2, hd, cap, 0⟩, w2, c.pos, ?_, k2, k3, hd1, rfl, rfl, by rw [← hc]⟩
      unfold response
      rw [M.bind_ok hu, M.bind_ok k1]
      rfl
  · left
    obtain ⟨c, hc⟩ := run_responseProg_drop fuel id g.payload hr
    have hdat := prog_cursor_data (responseProg fuel id) ⟨g.payload, 0⟩
    rw [hc] at hdat
    have hc' : c = ⟨g.payload, c.pos⟩ := by cases c; cases hdat; rfl
    rw [hc'] at hc
    obtain ⟨w2, u2, k1, k2, k3⟩ := h.run_ok hc
    obtain ⟨w3, j1, j2, j3, j4⟩ := k3.done_calm
    refine ⟨hr, w3, ?_, j2, (k2.calm _).recvd.trans j3, (k2.calm _).toTxCalm.trans j4⟩
    unfold response
    rw [M.bind_ok hu, M.bind_ok k1]
    dsimp only
    rw [M.bind_ok j1]
    rfl

theorem _root_.Verif.UR.length_lt {w : World} {u : UdpReader} {sn : Sn} {d : Bytes} {pos base p : Nat} (h : UR w u sn d pos base p) : d.length < 65535 := by
  have h1 := h.rel.len
  have h2 := h.rel.rx.rx.fits
  have h3 := h.rel.rx.rx.size_lt
  simp only at h1 h2 h3
  omega

theorem rrCount_words {hd : Dns.Header} {m : Bytes} (h12 : 12 ≤ m.length) (h : hd.asBytes = m.take 12) :
    (rrCount hd).toNat = min (Spec.Dns.word m 6 + Spec.Dns.word m 8 + Spec.Dns.word m 10) 65535 := by
  obtain ⟨b0, b1, b2, b3, b4, b5, b6, b7, b8, b9, b10, b11, rest', hm⟩ := take12 h12
  rw [hm] at h
  obtain ⟨a0, a1, a2, a3, a4, a5, a6, a7, a8, a9, a10, a11⟩ := hd
  unfold Header.asBytes at h
  simp only [List.take_succ_cons, List.take_zero, List.cons.injEq, and_true] at h
  obtain ⟨_, _, _, _, _, _, h6, h7, h8, h9, h10, h11⟩ := h
  rw [rrCount_toNat, hm]
  unfold Header.ancount Header.nscount Header.arcount
  rw [be16_toNat, be16_toNat, be16_toNat, h6, h7, h8, h9, h10, h11]
  rfl

theorem nextResults_length (fuel : Nat) (b : Bus σ) : ∀ (n : Nat) (s : σ × Response), (nextResults fuel b n s).length = n
  | 0, _ => rfl
  | n + 1, s => by rw [nextResults, List.length_cons, nextResults_length fuel b n]

/-- The questions of the response `m` make the client fail with `e`. -/
def StuckOn (fuel : Nat) (id : Option UInt16) (m : Bytes) (e : Err) : Prop :=
  IsResponse id m ∧ ∃ c, (skipQuestions fuel (Spec.Dns.word m 4)).run cursorOps ⟨m, 12⟩ = (.error e, c)

theorem StuckOn.unreadable {fuel : Nat} {id : Option UInt16} {m : Bytes} {e : Err} (h : StuckOn fuel id m e) (hm : m.length < 65535) :
    ¬ Readable fuel m := by
  rintro ⟨q, hq⟩
  obtain ⟨-, c, hc⟩ := h
  rw [C27_questions_skipped m fuel 12 _ q hm hq] at hc
  cases hc

theorem closed_response_whole (fuel : Nat) (sn : Sn) (cap : Nat) (id : Option UInt16) (k : Nat) :
    KeepsWhole k (response false fuel worldBus sn cap id) := by
  unfold response
  refine .bind (closed_udpReader (closedWhole sn k) _) fun u => .bind (keepsWhole_onUdpReader k u _) fun x => ?_
  rcases x with ⟨_ | h, u'⟩
  · exact .bind (closed_udpReaderDone (closedWhole u'.inner.sn k) u' rfl) fun _ => (closedWhole' k).throw _ nofun
  · exact (closedWhole' k).pure _

/-- One attempt. -/
theorem poll_run {fuel : Nat} {sn : Sn} {id : Option UInt16} {p : Poll} {w : World} {gs : List Datagram} {n base : Nat}
    (h : Queue sn.idx w gs n base) (hp : WholeSteps sn.idx (p.before :: p.during)) :
    ∃ s w' gs' n', p.run fuel sn id w = (s, w') ∧ gs <+: gs' ∧ Queue sn.idx w' gs' n' base ∧ w'.chip.sent = w.chip.sent ∧
      ((n' = n ∧ n = gs.length ∧ s = .error .wouldBlock) ∨
       (∃ g, gs'[n]? = some g ∧ g.payload.length < 65535 ∧
        ((¬ IsResponse id g.payload ∧ n' = n + 1 ∧ s = .error .wouldBlock) ∨
         (∃ e, StuckOn fuel id g.payload e ∧ n' = n ∧ s = .error e) ∨
         (IsResponse id g.payload ∧ (∀ e, ¬ StuckOn fuel id g.payload e) ∧ n' = n + 1 ∧ AnswerOf fuel g.payload s)))) := by
  obtain ⟨gs1, g1, q1⟩ := h.pause hp
  obtain ⟨c1, -, -⟩ := pause_calm sn.idx w p.before p.during
  have hwr := closed_response_whole fuel sn p.cap id sn.idx _ q1.whole
  rcases q1.reader with ⟨u, w2, gs2, g, h1, h2, h3, h4, h5, h6, h7⟩ | ⟨w2, gs2, h1, h2, h3, h4, h5⟩
  · have hlen := h5.length_lt
    have hlt := (List.getElem?_eq_some_iff.mp h4).1
    have hs7 := (h7.calm sn.idx).toTxCalm.sent
    rcases response_run (fuel := fuel) (cap := p.cap) (id := id) h1 h5 with
      ⟨hn, w3, k1, k2, k3, k4⟩ | ⟨hr, e, c, w3, k1, k2, k3⟩ | ⟨hr, r, w3, q, k1, k2, k3, k4, k5, k6, k7⟩ <;> rw [k1] at hwr
    · obtain ⟨gs3, g3, q3⟩ := h3.next h4 hwr k3 k2
      refine ⟨.error .wouldBlock, w3, gs3, n + 1, ?_, (g1.trans h2).trans g3, q3, (k4.sent.trans hs7).trans c1.sent,
        .inr ⟨g, ?_, hlen, .inl ⟨hn, rfl, rfl⟩⟩⟩
      · unfold Poll.run; rw [k1]
      · obtain ⟨t, rfl⟩ := g3
        rw [List.getElem?_append_left hlt, h4]
    · obtain ⟨gs3, g3, q3⟩ := h3.later k2
      refine ⟨.error e, w3, gs3, n, ?_, (g1.trans h2).trans g3, q3, ((k2.calm sn.idx).toTxCalm.sent.trans hs7).trans c1.sent,
        .inr ⟨g, ?_, hlen, .inr (.inl ⟨e, ⟨hr, c, k3⟩, rfl, rfl⟩)⟩⟩
      · unfold Poll.run; rw [k1]
      · obtain ⟨t, rfl⟩ := g3
        rw [List.getElem?_append_left hlt, h4]
    · obtain ⟨w4, r4, q4, j1, j2, j3⟩ := nexts_run fuel p.count w3 r sn g.payload q base _ k3
      obtain ⟨w5, i1, i2, i3, i4⟩ := j3.done_calm
      have hw5 := closed_udpReaderDone (closedWhole r4.reader.inner.sn sn.idx) r4.reader rfl w4 (hwr.later j2)
      rw [i1] at hw5
      have hpre := ((k2.trans j2).calm sn.idx).recvd.trans i3
      obtain ⟨gs3, g3, q3⟩ := h3.next h4 hw5 hpre i2
      refine ⟨.answer p.cap p.count r.header (nextResults fuel worldBus p.count (w3, r)), w5, gs3, n + 1, ?_, (g1.trans h2).trans g3, q3,
        ((i4.sent.trans ((k2.trans j2).calm sn.idx).toTxCalm.sent).trans hs7).trans c1.sent, .inr ⟨g, ?_, hlen, .inr (.inr ⟨hr, ?_, rfl, ?_⟩)⟩⟩
      · unfold Poll.run
        rw [k1]
        dsimp only
        rw [j1]
        dsimp only
        unfold responseDone
        rw [i1]
      · obtain ⟨t, rfl⟩ := g3
        rw [List.getElem?_append_left hlt, h4]
      · rintro e ⟨-, c, hc⟩
        rw [k7] at hc
        cases hc
      · refine .mk _ _ _ _ k4 (nextResults_length ..) fun q' rs hq' hrs hcnt => ?_
        rw [C27_questions_skipped g.payload fuel 12 _ q' hlen hq'] at k7
        injection k7 with _ k7
        injection k7 with _ k7
        subst k7
        have e := results_cursor k3 fuel p.count
        rw [k5, k6, rrCount_words hr.1 k4, show (0 : UInt16).toNat = 0 from rfl, Nat.sub_zero, ← hcnt] at e
        rw [e]
        exact (results_of_records g.payload fuel p.cap hlen q' rs hrs p.count).2
  · have := h.le
    have := g1.length_le
    refine ⟨.error .wouldBlock, w2, gs2, n, ?_, g1.trans h2, h3, (h5.calm sn.idx).toTxCalm.sent.trans c1.sent, .inl ⟨rfl, by omega, rfl⟩⟩
    unfold Poll.run response
    rw [M.bind_error h1]

/-- What the application sees are these datagrams, one for one. -/
inductive AnswersAll (fuel : Nat) : List Seen → List Datagram → Prop
  | nil : AnswersAll fuel [] []
  | cons {s g ss gs} (h : AnswerOf fuel g.payload s) (hs : AnswersAll fuel ss gs) : AnswersAll fuel (s :: ss) (g :: gs)

instance (id : Option UInt16) (m : Bytes) : Decidable (IsResponse id m) :=
  match id with
  | none => decidable_of_iff (12 ≤ m.length ∧ 128 ≤ (m.getD 2 0).toNat) ⟨fun h => ⟨h.1, h.2, nofun⟩, fun h => ⟨h.1, h.2.1⟩⟩
  | some i => decidable_of_iff (12 ≤ m.length ∧ 128 ≤ (m.getD 2 0).toNat ∧ Spec.Dns.word m 0 = i.toNat)
      ⟨fun h => ⟨h.1, h.2.1, fun _ hj => Option.some.inj hj ▸ h.2.2⟩, fun h => ⟨h.1, h.2.1, h.2.2 i rfl⟩⟩

/-- The responses to the query `id` among these datagrams. -/
def responses (id : Option UInt16) (gs : List Datagram) : List Datagram := gs.filter fun g => IsResponse id g.payload

theorem dns_session (fuel : Nat) (sn : Sn) (id : Option UInt16) (base : Nat) : ∀ (ps : List Poll) (w : World) (gs : List Datagram) (n : Nat),
    Queue sn.idx w gs n base → (∀ p ∈ ps, WholeSteps sn.idx (p.before :: p.during)) →
    ∃ gs' n', gs <+: gs' ∧ n ≤ n' ∧ Queue sn.idx (polls fuel sn id ps w).2 gs' n' base ∧
      (∀ g ∈ (gs'.take n').drop n, ∀ e, ¬ StuckOn fuel id g.payload e) ∧
      AnswersAll fuel (answers (polls fuel sn id ps w).1) (responses id ((gs'.take n').drop n)) ∧
      (∀ e, Seen.error e ∈ (polls fuel sn id ps w).1 → e = .wouldBlock ∨
        (∃ g, gs'[n']? = some g ∧ g.payload.length < 65535 ∧ StuckOn fuel id g.payload e)) ∧
      (polls fuel sn id ps w).2.chip.sent = w.chip.sent ∧
      (∀ m, m ≤ gs.length → (∀ g ∈ gs.take m, ∀ e, ¬ (g.payload.length < 65535 ∧ StuckOn fuel id g.payload e)) → min m (n + ps.length) ≤ n') ∧
      (∀ xs ys gs0 m, ps = xs ++ ys → Fit gs0 → (polls fuel sn id xs w).2.chip.received sn.idx = frames gs0 → m ≤ gs0.length →
        (∀ g ∈ gs0.take m, ∀ e, ¬ (g.payload.length < 65535 ∧ StuckOn fuel id g.payload e)) → min m ys.length ≤ n') := by
  intro ps
  induction ps with
  | nil =>
    intro w gs n h _
    refine ⟨gs, n, List.prefix_refl _, Nat.le_refl _, h, ?_, ?_, nofun, rfl, fun _ _ _ => Nat.min_le_right _ _, ?_⟩
    · simp
    · simp [polls, answers, responses, AnswersAll.nil]
    · intro xs ys gs0 m e _ _ _ _
      have : ys = [] := by simp at e; exact e.2
      subst this
      exact Nat.le_trans (Nat.min_le_right _ _) (Nat.zero_le _)
  | cons p ps ih =>
    intro w gs n h hq
    obtain ⟨s, w2, gs2, n2, e, g2, r2, s2, hr⟩ := poll_run (fuel := fuel) (id := id) h (hq p (List.mem_cons_self ..))
    have hT : ∀ us, polls fuel sn id (p :: us) w = (s :: (polls fuel sn id us w2).1, (polls fuel sn id us w2).2) := by
      intro us; rw [polls, e]
    obtain ⟨gs', n', i1, i2, i3, i4, i5, i6, i7, i8, i9⟩ := ih w2 gs2 n2 r2 (fun b hb => hq b (List.mem_cons_of_mem _ hb))
    rw [hT]
    have hle := i3.le
    have hmin : ∀ m, m ≤ gs.length → (∀ g ∈ gs.take m, ∀ e, ¬ (g.payload.length < 65535 ∧ StuckOn fuel id g.payload e)) →
        min m (n + (ps.length + 1)) ≤ n' := by
      intro m hm hns
      have hm2 := i8 m (Nat.le_trans hm g2.length_le) (by rw [take_of_prefix g2 hm]; exact hns)
      rcases hr with ⟨rfl, hn, -⟩ | ⟨g, hg, hgl, ⟨-, rfl, -⟩ | ⟨er, hst, rfl, -⟩ | ⟨-, -, rfl, -⟩⟩
      · omega
      · omega
      · rcases Nat.lt_or_ge n2 m with hlt | hge
        · refine absurd ⟨hgl, hst⟩ (hns g ?_ er)
          rw [← take_of_prefix g2 hm, List.mem_iff_getElem?]
          exact ⟨n2, by rw [List.getElem?_take_of_lt hlt, hg]⟩
        · omega
      · omega
    have hstay : ∀ g er, gs2[n]? = some g → StuckOn fuel id g.payload er → n2 = n → n' = n ∧ gs'[n']? = some g := by
      intro g er hg hst he
      have hg' : gs'[n]? = some g := by
        obtain ⟨t, rfl⟩ := i1
        rw [List.getElem?_append_left (List.getElem?_eq_some_iff.mp hg).1, hg]
      have hn : n' = n := by
        rw [he] at i2 i4
        rcases Nat.lt_or_ge n n' with hlt | hge
        · refine absurd hst (i4 g ?_ er)
          rw [List.mem_iff_getElem?]
          exact ⟨0, by rw [List.getElem?_drop, List.getElem?_take_of_lt (by omega)]; exact hg'⟩
        · omega
      exact ⟨hn, by rw [hn, hg']⟩
    refine ⟨gs', n', g2.trans i1, ?_, i3, ?_, ?_, ?_, i7.trans s2, hmin, ?_⟩
    · rcases hr with ⟨rfl, -, -⟩ | ⟨g, hg, hgl, ⟨-, rfl, -⟩ | ⟨er, hst, rfl, -⟩ | ⟨-, -, rfl, -⟩⟩ <;> omega
    · rcases hr with ⟨rfl, -, -⟩ | ⟨g, hg, hgl, ⟨hnr, rfl, -⟩ | ⟨er, hst, rfl, -⟩ | ⟨-, hns, rfl, -⟩⟩
      · exact i4
      · intro x hx
        rw [drop_taken i1 hg i2] at hx
        rcases List.mem_cons.mp hx with rfl | hx
        · exact fun e he => hnr he.1
        · exact i4 x hx
      · exact i4
      · intro x hx
        rw [drop_taken i1 hg i2] at hx
        rcases List.mem_cons.mp hx with rfl | hx
        · exact hns
        · exact i4 x hx
    · rcases hr with ⟨rfl, -, rfl⟩ | ⟨g, hg, hgl, ⟨hnr, rfl, rfl⟩ | ⟨er, hst, rfl, rfl⟩ | ⟨hir, hns, rfl, ha⟩⟩
      · exact i5
      · rw [drop_taken i1 hg i2]
        unfold responses at i5 ⊢
        rw [List.filter_cons_of_neg (by simpa using hnr)]
        exact i5
      · exact i5
      · rw [drop_taken i1 hg i2]
        unfold responses at i5 ⊢
        rw [List.filter_cons_of_pos (by simpa using hir)]
        cases ha with
        | mk cap count header rrs hh hl hr => exact .cons (.mk cap count header rrs hh hl hr) i5
    · intro x hx
      rcases List.mem_cons.mp hx with hx | hx
      · rcases hr with ⟨rfl, -, rfl⟩ | ⟨g, hg, hgl, ⟨hnr, rfl, rfl⟩ | ⟨er, hst, he, rfl⟩ | ⟨hir, hns, rfl, ha⟩⟩
        · left; injection hx
        · left; injection hx
        · injection hx with hx
          subst hx
          exact .inr ⟨g, (hstay g x hg hst he).2, hgl, hst⟩
        · rw [← hx] at ha; cases ha
      · exact i6 x hx
    · intro xs ys gs0 m e0 hf hx hm hns
      cases xs with
      | nil =>
        have := frames_inj hf h.fit (hx.symm.trans h.recv)
        subst this
        have e1 : ys.length = ps.length + 1 := by rw [show ys = _ from e0.symm]; rfl
        have := hmin m hm hns
        omega
      | cons x xs =>
        injection e0 with e1 e2
        subst e1
        rw [hT] at hx
        exact i9 xs ys gs0 m e2 hf hx hm hns

/-! ## After the query -/

theorem keepsWhole_writeTo {α : Type} (k : Nat) (sn : Sn) (dest : SockAddr) (prog : WProg α) : KeepsWhole k (writeTo sn dest prog) := by
  unfold writeTo
  refine .bind (closed_setSnDest (closedWhole sn k) _) fun _ => .bind (closed_socketWriter (closedWhole sn k)) fun r => ?_
  intro w h
  have h2 := wprog_whole k prog w r h
  unfold onWriter
  rcases hx : prog.run (writerOps worldBus) (w, r) with ⟨x, w2, r2⟩
  rw [hx] at h2
  cases x <;> exact h2

theorem keepsWhole_sendQuery (k : Nat) (r : Ptrs) (h : Dns.Header) : KeepsWhole k (sendQuery worldBus r h) := by
  unfold sendQuery
  split
  · exact (closedWhole' k).pure _
  · exact .bind (closed_writerSend (closedWhole r.sn k) r rfl) fun _ => (closedWhole' k).pure _

/-- A query has been sent from a socket just opened. -/
theorem asked_queue {sn : Sn} {w1 w2 : World} {size : Nat} (h : Fresh w1.chip sn.idx size) (hw : WholeDatagrams sn.idx w1) {dest : SockAddr}
    {prog : WProg Dns.Header} {i : UInt16}
    (hq : (writeTo sn dest prog >>= fun hr => sendQuery worldBus hr.2 hr.1) w1 = (.ok i, w2)) :
    ∃ base gs, Queue sn.idx w2 gs 0 base := by
  have hw2 := KeepsWhole.bind (keepsWhole_writeTo sn.idx sn dest prog) (fun hr => keepsWhole_sendQuery sn.idx hr.2 hr.1) w1 hw
  rw [hq] at hw2
  obtain ⟨base, hb0⟩ := h.rx.at
  obtain ⟨gs, g1, g2⟩ := hw2.past
  refine ⟨base, gs, hw2, g1, g2, Nat.zero_le _, ?_⟩
  show RxAt w2.chip sn.idx base 0
  have hfr := keepsFresh_setSnDest sn dest w1 base hb0 h.tx
  unfold writeTo at hq
  rw [bind_assoc, M.bind_run] at hq
  rw [run_setSnDest] at hfr hq
  dsimp only at hfr hq
  rw [bind_assoc] at hq
  obtain ⟨r, img, k1, k2, -⟩ := run_socketWriter (w := { w1.tick with chip := setDest w1.tick.chip sn.idx dest }) (sn := sn) hfr.2
  rw [M.bind_ok k1, M.bind_run] at hq
  have hto := txOnly_wprog prog (World.tick { w1.tick with chip := setDest w1.tick.chip sn.idx dest }) r
  have hsn := wprog_sn (b := worldBus) prog (World.tick { w1.tick with chip := setDest w1.tick.chip sn.idx dest }) r
  rw [k2] at hto hsn
  have hx := hto.rx base 0 hfr.1.tick
  unfold onWriter at hq
  rcases hp : prog.run (writerOps worldBus) (World.tick { w1.tick with chip := setDest w1.tick.chip sn.idx dest }, r) with ⟨e | hd, w3, r3⟩ <;>
    rw [hp] at hq hx hsn <;> dsimp only at hq hx hsn
  · cases hq
  unfold sendQuery at hq
  split at hq
  · cases hq; exact hx
  · have hs := txOnly_writerSend r3 w3
    rw [M.bind_run] at hq
    rcases hz : writerSend worldBus r3 w3 with ⟨e | u, w4⟩ <;> rw [hz] at hq hs <;> dsimp only at hq hs
    · cases hq
    · cases hq
      rw [hsn] at hs
      exact hs.rx base 0 hx

/-- What is said of the attempts made after a query. -/
def LookupOk (fuel : Nat) (sn : Sn) (id : Option UInt16) (w1 : World) (ps : List Poll) : Prop :=
  let seen := (polls fuel sn id ps w1).1
  let w2 := (polls fuel sn id ps w1).2
  ∃ gs n, Fit gs ∧ w2.chip.received sn.toU8.toNat = frames gs ∧ n ≤ gs.length ∧
    RxState w2.chip sn.toU8.toNat (frames (gs.take n)).length ∧
    AnswersAll fuel (answers seen) (responses id (gs.take n)) ∧
    (∀ e, Seen.error e ∈ seen → e = .wouldBlock ∨
      ∃ g, gs[n]? = some g ∧ IsResponse id g.payload ∧ ¬ Readable fuel g.payload) ∧
    w2.chip.sent = w1.chip.sent ∧
    (∀ xs ys gs0 m, ps = xs ++ ys → Fit gs0 → (polls fuel sn id xs w1).2.chip.received sn.toU8.toNat = frames gs0 → m ≤ gs0.length →
      (∀ g ∈ gs0.take m, IsResponse id g.payload → Readable fuel g.payload) → min m ys.length ≤ n)

theorem lookupOk {fuel : Nat} {sn : Sn} {id : Option UInt16} {w1 : World} {gs0 : List Datagram} {base : Nat} (h : Queue sn.idx w1 gs0 0 base)
    (ps : List Poll) (hp : ∀ p ∈ ps, WholeSteps sn.idx (p.before :: p.during)) : LookupOk fuel sn id w1 ps := by
  obtain ⟨gs, n, h1, -, h3, h4, h5, h6, h7, -, h9⟩ := dns_session fuel sn id base ps w1 gs0 0 h hp
  refine ⟨gs, n, h3.fit, h3.recv, h3.le, h3.rx.state, h5, fun e he => ?_, h7, fun xs ys gs1 m e0 hf hx hm hns => ?_⟩
  · rcases h6 e he with rfl | ⟨g, k1, k2, k3⟩
    · exact .inl rfl
    · exact .inr ⟨g, k1, k3.1, k3.unreadable k2⟩
  · exact h9 xs ys gs1 m e0 hf hx hm fun g hg e hs => hs.2.unreadable hs.1 (hns g hg hs.2.1)

/-- C113: a lookup, in a release build.  A query about one or more valid host names has been sent.  Then attempts to get a response are made, any number, while whole
datagrams from anybody arrive at any time.  The query was sent, once, and nothing else is.  The datagrams received are consumed in the order received, up
to some point.  The responses the application is shown are the responses to its query among the datagrams consumed: each once, in order, none left out and none
made up, each with its header and, if it is well-formed, its records in order.  When there is no response the result is `WouldBlock`, or else the
datagram now first in the queue is a response to the query whose questions are malformed.  Trying is enough: of the datagrams received at some time, those before the
first response with malformed questions are consumed once the application has tried that many times after it. -/
theorem C113_lookup (fuel : Nat) (c c' : Client) (qs : List (Qtype × Bytes)) (id : UInt16) (w w1 : World) (ps : List Poll)
    (hz : Sizes w.chip c.sn.toU8.toNat) (hw : WholeDatagrams c.sn.toU8.toNat w) (hv : ∀ q ∈ qs, ValidHostname q.2) (hne : qs ≠ [])
    (hq : query false fuel worldBus c qs w = (.ok (id, c'), w1)) (hp : ∀ p ∈ ps, WholeSteps c.sn.toU8.toNat (p.before :: p.during)) :
    (∃ m, w1.chip.sent = w.chip.sent ++ [⟨c.sn.toU8.toNat, c.server.ip.octets, c.server.port.toNat, m⟩] ∧
      decodeQuery m = some (queryFor id qs)) ∧
    LookupOk fuel c.sn (some id) w1 ps := by
  have hq0 := hq
  rw [query_eq, M.bind_run] at hq
  rcases hb : udpBind false fuel worldBus c.sn c.port w with ⟨e | _, w0⟩ <;> rw [hb] at hq <;> dsimp only at hq
  · cases hq
  have hw0 := closed_udpBind (closedWhole c.sn c.sn.idx) false fuel c.port w hw
  rw [hb] at hw0
  have hf := udpBind_fresh hz hb
  rw [← bind_assoc, M.bind_run] at hq
  rcases hs : (writeTo c.sn c.server (queryProg c.rng.nextU16.1 qs) >>= fun hr => sendQuery worldBus hr.2 hr.1) w0 with ⟨e | i, w2⟩ <;>
    rw [hs] at hq <;> dsimp only at hq
  · cases hq
  cases hq
  obtain ⟨base, gs0, hqu⟩ := asked_queue hf hw0 hs
  refine ⟨?_, lookupOk hqu ps hp⟩
  obtain ⟨k1, k2⟩ := C26_query false fuel c qs w w0 hz hv hne hb
  by_cases hfit : 12 + (qs.map fun q => q.2.length + 6).sum ≤ w.chip.txSize c.sn.toU8.toNat
  · obtain ⟨id', w', m, e1, e2, e3, e4⟩ := k1 hfit
    rw [hq0] at e1
    cases e1
    exact ⟨m, e3, e4⟩
  · obtain ⟨e, w', -, e1, -⟩ := k2 hfit
    rw [hq0] at e1
    cases e1

/-- C113 for the multicast client, which takes every response for one to its query. -/
theorem C113_mdns (fuel : Nat) (c : MdnsClient) (qs : List (Qtype × Bytes)) (w w1 : World) (ps : List Poll)
    (hz : Sizes w.chip c.sn.toU8.toNat) (hw : WholeDatagrams c.sn.toU8.toNat w) (hv : ∀ q ∈ qs, ValidHostname q.2) (hne : qs ≠ [])
    (hq : mdnsQuery fuel worldBus c qs w = (.ok (), w1)) (hp : ∀ p ∈ ps, WholeSteps c.sn.toU8.toNat (p.before :: p.during)) :
    (∃ m, w1.chip.sent = w.chip.sent ++ [⟨c.sn.toU8.toNat, [224, 0, 0, 251], 5353, m⟩] ∧ decodeQuery m = some (queryFor 0 qs)) ∧
    LookupOk fuel c.sn none w1 ps := by
  have hm := (C26_mdns fuel c qs w hz hv hne).1
  rw [hq] at hm
  refine ⟨hm rfl, ?_⟩
  rw [mdnsQuery_eq, M.bind_run] at hq
  rcases hb : (do
      worldBus.setSnDhar c.sn ⟨0x01, 0x00, 0x5E, 0x00, 0x00, 0xFB⟩
      worldBus.setSnTtl c.sn 255
      worldBus.setSnCr c.sn .close
      waitStatus worldBus c.sn .closed fuel
      worldBus.setSnPort c.sn c.port
      worldBus.setSnMr c.sn (SocketMode.default.setProtocol .udp).enableMulti
      worldBus.setSnCr c.sn .«open»
      waitStatus worldBus c.sn .udp fuel : M World Unit) w with ⟨e | u, w0⟩ <;> rw [hb] at hq <;> dsimp only at hq
  · cases hq
  have hc := closedWhole c.sn c.sn.idx
  have hc' := closedWhole' c.sn.idx
  have hw0 : WholeDatagrams c.sn.idx w0 := by
    have : KeepsWhole c.sn.idx (do
      worldBus.setSnDhar c.sn ⟨0x01, 0x00, 0x5E, 0x00, 0x00, 0xFB⟩
      worldBus.setSnTtl c.sn 255
      worldBus.setSnCr c.sn .close
      waitStatus worldBus c.sn .closed fuel
      worldBus.setSnPort c.sn c.port
      worldBus.setSnMr c.sn (SocketMode.default.setProtocol .udp).enableMulti
      worldBus.setSnCr c.sn .«open»
      waitStatus worldBus c.sn .udp fuel) :=
      .bind (hc'.write _ _ _ trivial) fun _ => .bind (hc'.write _ _ _ trivial) fun _ => .bind (hc'.write _ _ _ trivial) fun _ =>
      .bind (closed_waitStatus hc _ _) fun _ => .bind (hc'.write _ _ _ trivial) fun _ => .bind (hc'.write _ _ _ trivial) fun _ =>
      .bind (hc'.write _ _ _ trivial) fun _ => closed_waitStatus hc _ _
    have := this w hw
    rw [hb] at this
    exact this
  have hf : Fresh w0.chip c.sn.idx (w.chip.txSize c.sn.idx) := by
    refine open_fresh (sn := c.sn) (pre := do
        worldBus.setSnDhar c.sn ⟨0x01, 0x00, 0x5E, 0x00, 0x00, 0xFB⟩
        worldBus.setSnTtl c.sn 255
        worldBus.setSnCr c.sn .close
        waitStatus worldBus c.sn .closed fuel
        worldBus.setSnPort c.sn c.port
        worldBus.setSnMr c.sn (SocketMode.default.setProtocol .udp).enableMulti)
      (.bind (keepsSize_setSnDhar _ _) fun _ => .bind (keepsSize_setSnTtl _ _) fun _ =>
        .bind (keepsSize_setStatusCmd c.sn .close 0x00 fun _ => rfl) fun _ =>
        .bind ((readOnly_waitStatus _ _ _).keepsSize _) fun _ => .bind (keepsSize_setSnPort _ _) fun _ => keepsSize_setSnMr _ _)
      (post := waitStatus worldBus c.sn .udp fuel) ((readOnly_waitStatus _ _ _).keepsFresh _)
      (ReadOnly.keepsFull (readOnly_waitStatus _ _ _) _) ((readOnly_waitStatus _ _ _).keepsSize _) w u w0 hz ?_
    simp only [bind_assoc]; exact hb
  rw [← bind_assoc, M.bind_run] at hq
  rcases hs : (writeTo c.sn mdnsServer (queryProg 0 qs) >>= fun hr => sendQuery worldBus hr.2 hr.1) w0 with ⟨e | i, w2⟩ <;>
    rw [hs] at hq <;> dsimp only at hq
  · cases hq
  cases hq
  obtain ⟨base, gs0, hqu⟩ := asked_queue hf hw0 hs
  exact lookupOk hqu ps hp

/-! ## C114 -/

theorem stuck_header {fuel : Nat} (hf : 0 < fuel) {id : Option UInt16} {m : Bytes} (h : IsResponse id m) (hm : m.length = 12)
    (hq : 0 < Spec.Dns.word m 4) : StuckOn fuel id m .unexpectedEof := by
  obtain ⟨f, rfl⟩ : ∃ f, fuel = f + 1 := ⟨fuel - 1, by omega⟩
  obtain ⟨k, hk⟩ : ∃ k, Spec.Dns.word m 4 = k + 1 := ⟨Spec.Dns.word m 4 - 1, by omega⟩
  have e : (readLabels (f + 1) 0).run cursorOps ⟨m, 12⟩ = (.error .unexpectedEof, ⟨m, 12⟩) := by
    rw [readLabels, readLabelsLoop, RProg.bind_ok (cur_read 2 m 12), List.drop_of_length_le (by omega)]
    rfl
  exact ⟨h, _, by rw [hk, skipQuestions, RProg.bind_error e]⟩

/-- C114 is false: a response to the query that announces a question and ends after the header is never removed.  Every attempt fails from then on,
whatever else is received. -/
theorem C114_blocked (fuel : Nat) (hf : 0 < fuel) (sn : Sn) (id : Option UInt16) (w : World) (gs : List Datagram) (n : Nat) (g : Datagram) (ps : List Poll)
    (hw : WholeDatagrams sn.toU8.toNat w) (hg : Fit gs) (hr : w.chip.received sn.toU8.toNat = frames gs)
    (hx : RxState w.chip sn.toU8.toNat (frames (gs.take n)).length) (hn : gs[n]? = some g)
    (hi : IsResponse id g.payload) (hm : g.payload.length = 12) (hk : 0 < Spec.Dns.word g.payload 4)
    (hp : ∀ p ∈ ps, WholeSteps sn.toU8.toNat (p.before :: p.during)) :
    (polls fuel sn id ps w).1 = List.replicate ps.length (.error .unexpectedEof) ∧
    udpFrame g.src g.payload <+: (polls fuel sn id ps w).2.chip.unread sn.toU8.toNat := by
  have hlt := (List.getElem?_eq_some_iff.mp hn).1
  obtain ⟨base, hb⟩ := hx.at
  have hqu : Queue sn.idx w gs n base := ⟨hw, hg, hr, by omega, hb⟩
  have hst := stuck_header hf hi hm hk
  have key : ∀ (ps : List Poll) (w : World) (gs : List Datagram), Queue sn.idx w gs n base → gs[n]? = some g →
      (∀ p ∈ ps, WholeSteps sn.toU8.toNat (p.before :: p.during)) →
      (polls fuel sn id ps w).1 = List.replicate ps.length (.error .unexpectedEof) ∧
      udpFrame g.src g.payload <+: (polls fuel sn id ps w).2.chip.unread sn.toU8.toNat := by
    intro ps
    induction ps with
    | nil =>
      intro w gs hq hn _
      refine ⟨rfl, ?_⟩
      have hlt := (List.getElem?_eq_some_iff.mp hn).1
      show _ <+: w.chip.unread sn.idx
      rw [hq.rx.state.data, hq.recv, frames_drop, List.drop_eq_getElem_cons hlt, frames_cons, (List.getElem?_eq_some_iff.mp hn).2]
      exact List.prefix_append _ _
    | cons p ps ih =>
      intro w gs hq hn hp
      obtain ⟨s, w2, gs2, n2, e, g2, r2, s2, hr⟩ := poll_run (fuel := fuel) (id := id) hq (hp p (List.mem_cons_self ..))
      have hlt := (List.getElem?_eq_some_iff.mp hn).1
      have hn2 : gs2[n]? = some g := by
        obtain ⟨t, rfl⟩ := g2
        rw [List.getElem?_append_left hlt, hn]
      have : n2 = n ∧ s = .error .unexpectedEof := by
        rcases hr with ⟨-, hn', -⟩ | ⟨g', hg', -, hr⟩
        · omega
        · rw [hn2] at hg'
          cases hg'
          rcases hr with ⟨h, -, -⟩ | ⟨er, ⟨-, c, h1⟩, h2, h3⟩ | ⟨-, h, -, -⟩
          · exact absurd hi h
          · obtain ⟨-, c', h4⟩ := hst
            rw [h4] at h1
            cases h1
            exact ⟨h2, h3⟩
          · exact absurd hst (h _)
      obtain ⟨rfl, rfl⟩ := this
      obtain ⟨i1, i2⟩ := ih w2 gs2 r2 hn2 (fun b hb => hp b (List.mem_cons_of_mem _ hb))
      rw [polls, e, List.length_cons, List.replicate_succ]
      exact ⟨by rw [i1], i2⟩
  exact key ps w gs hqu hn hp

/-- C114, in part: any other datagram is removed by one attempt.  Missing: responses to the query with malformed questions
(`C114_blocked`). -/
theorem C114_removed_partial (fuel : Nat) (sn : Sn) (id : Option UInt16) (w : World) (gs : List Datagram) (n : Nat) (g : Datagram) (p : Poll)
    (hw : WholeDatagrams sn.toU8.toNat w) (hg : Fit gs) (hr : w.chip.received sn.toU8.toNat = frames gs)
    (hx : RxState w.chip sn.toU8.toNat (frames (gs.take n)).length) (hn : gs[n]? = some g)
    (hi : IsResponse id g.payload → Readable fuel g.payload) (hp : WholeSteps sn.toU8.toNat (p.before :: p.during)) :
    RxState (p.run fuel sn id w).2.chip sn.toU8.toNat (frames (gs.take (n + 1))).length ∧
    (IsResponse id g.payload → AnswerOf fuel g.payload (p.run fuel sn id w).1) ∧
    (¬ IsResponse id g.payload → (p.run fuel sn id w).1 = .error .wouldBlock) := by
  have hlt := (List.getElem?_eq_some_iff.mp hn).1
  obtain ⟨base, hb⟩ := hx.at
  have hqu : Queue sn.idx w gs n base := ⟨hw, hg, hr, by omega, hb⟩
  obtain ⟨s, w2, gs2, n2, e, g2, r2, s2, hr⟩ := poll_run (fuel := fuel) (id := id) hqu hp
  have hn2 : gs2[n]? = some g := by
    obtain ⟨t, rfl⟩ := g2
    rw [List.getElem?_append_left hlt, hn]
  rw [e]
  have hrx := r2.rx.state
  rcases hr with ⟨-, hn', -⟩ | ⟨g', hg', hl', hr⟩
  · omega
  · rw [hn2] at hg'
    cases hg'
    rcases hr with ⟨h, rfl, rfl⟩ | ⟨er, h1, -, -⟩ | ⟨h, -, rfl, h2⟩
    · rw [take_of_prefix g2 hlt] at hrx
      exact ⟨hrx, fun h' => absurd h' h, fun _ => rfl⟩
    · exact absurd (hi h1.1) (h1.unreadable hl')
    · rw [take_of_prefix g2 hlt] at hrx
      exact ⟨hrx, fun _ => h2, fun h' => absurd h h'⟩

/-! ## Witnesses -/

/-- A client on socket 5 of the server 8.8.8.8. -/
def dnsClient : Client := ⟨.sn5, 45917, ⟨⟨8, 8, 8, 8⟩, 53⟩, ⟨1⟩⟩
/-- The identifier of its first query. -/
def dnsId : UInt16 := dnsClient.rng.nextU16.1
/-- A response to it with one A record. -/
def dnsAnswer : Datagram := ⟨⟨⟨8, 8, 8, 8⟩, 53⟩, (dnsId >>> 8).toUInt8 :: dnsId.toUInt8 :: sampleResponse.drop 2⟩
/-- A response to it that ends after the header. -/
def dnsCut : Datagram := ⟨⟨⟨8, 8, 8, 8⟩, 53⟩, dnsAnswer.payload.take 12⟩
/-- Attempts: nothing there, then a stray datagram and the response, then a cut response. -/
def dnsPolls : List Poll :=
  [⟨[], 64, 2, []⟩, ⟨[.arrive 5 (frames [⟨⟨⟨10, 0, 0, 2⟩, 53⟩, [1, 2]⟩])], 64, 2, [[], [.arrive 5 (frames [dnsAnswer])]]⟩, ⟨[], 64, 2, []⟩,
   ⟨[.arrive 5 (frames [dnsCut, dnsAnswer])], 64, 2, []⟩, ⟨[], 64, 2, []⟩]
def dnsStart : World := queueWorld [0, 0, 0, 0] []
def dnsAsked : World := (query false 3 worldBus dnsClient [(.A, [97])] dnsStart).2
def dnsSeen : List Seen × World := polls 3 .sn5 (some dnsId) dnsPolls dnsAsked
/-- What is seen, for short: the number of each record's address, 1 if there are no more records, and nothing for an error. -/
def brief : Seen → List Nat
  | .error _ => []
  | .answer _ _ _ rrs => rrs.map fun
    | .ok (some rr) => match rr.rdata with | .A ip => ip.octets.foldl (fun n b => n * 256 + b.toNat) 0 | _ => 2
    | .ok none => 1
    | .error _ => 3

theorem wholeSteps_dnsPolls : ∀ p ∈ dnsPolls, WholeSteps 5 (p.before :: p.during) := by
  intro a ha es he bs hb
  simp only [dnsPolls, List.mem_cons, List.not_mem_nil, or_false] at ha
  rcases ha with rfl | rfl | rfl | rfl | rfl <;> simp at he <;> (try rcases he with rfl | rfl | rfl) <;>
    simp at hb <;> subst hb <;> exact ⟨_, by unfold Fit; decide +kernel, rfl⟩

/-- The hypotheses of `C113_lookup` are met. -/
example : (query false 3 worldBus dnsClient [(.A, [97])] dnsStart).1.toOption.map (·.1) = some dnsId ∧ Sizes dnsStart.chip 5 ∧
    WholeDatagrams 5 dnsStart ∧ ∀ p ∈ dnsPolls, WholeSteps 5 (p.before :: p.during) :=
  ⟨by decide +kernel,
    ⟨by decide +kernel, by decide +kernel, by decide +kernel, by decide +kernel⟩, ⟨⟨[], nofun, rfl⟩, nofun⟩, wholeSteps_dnsPolls⟩

/-- What comes of it: one response, with the record asked for and then no more; the cut response stays, and the one after it is not seen. -/
example : dnsSeen.1.map brief = [[], [], [0x0A000001, 1], [], []] ∧
    dnsSeen.2.chip.unread 5 = frames [dnsCut, dnsAnswer] ∧ dnsSeen.2.chip.sent.length = 1 := by
  decide +kernel

/-- The hypotheses of `C114_blocked` are met. -/
example : RxState (queueWorld [0, 0, 0, 0] [dnsCut, dnsAnswer]).chip 5 (frames ([dnsCut, dnsAnswer].take 0)).length ∧
    IsResponse (some dnsId) dnsCut.payload ∧ dnsCut.payload.length = 12 ∧ 0 < Spec.Dns.word dnsCut.payload 4 :=
  ⟨⟨by decide +kernel, by decide +kernel, by decide +kernel, by decide +kernel, by decide +kernel, by decide +kernel⟩, by decide +kernel,
    by decide +kernel, by decide +kernel⟩

end Verif.Thm
