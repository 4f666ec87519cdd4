import Verif.Props.ParserSafety

/-!
# C03 - C08, C10, C13: what the streaming parser returns

`D` is the packet dispatch (`match_packet` and `MAX_PAYLOAD_LEN`); the theorems hold for every
dispatch, in particular for the one of the crate (`Verif.Model.Dispatch`).
-/

namespace Ublox.Props

open Spec Parser
open UnderlyingBuffer (maxCapacity)

variable {P : Type} {M : Nat} {D : Dispatch P}

/-! ## When a history is within the limits of a `Vec` -/

/-- A history that feeds at most `isize::MAX` bytes is within the limits. -/
theorem vecHolds_of_total (hM : D.maxPayloadLen + 8 ≤ M) {h : List (Bytes × Nat)}
    (ht : (fedBytes h).length ≤ M / 2) : VecHolds M D h := by
  -- shown for the prefixes of `h`, by induction on their length
  have key : ∀ (h1 : List (Bytes × Nat)) (p : Parser (VecBuf M)) (k : Nat),
      LawfulBuffer.Inv M p.buf → p.bufferLen ≤ k → k + (fedBytes h1).length ≤ M / 2 →
      ∀ rs q, session M D p h1 = some (.ok (rs, q)) → q.bufferLen ≤ k + (fedBytes h1).length := by
    intro h1
    induction h1 with
    | nil =>
      intro p k hi hk _ rs q hq
      simp only [session, Option.some.injEq, Except.ok.injEq, Prod.mk.injEq] at hq
      rw [← hq.2]; omega
    | cons x rest ih =>
      intro p k hi hk hl rs q hq
      obtain ⟨c, n⟩ := x
      have hfed : (fedBytes ((c, n) :: rest)).length = c.length + (fedBytes rest).length := by
        simp [fedBytes]
      rw [hfed] at hl ⊢
      have hroom : p.bufferLen + c.length ≤ M / 2 := by omega
      obtain ⟨rs1, p1, f1, _, f3, _⟩ := c02_progress_and_fused (D := D) hM hi c (by omega)
        hroom n
      obtain ⟨evs, p1', s, g1, g2, _⟩ := feed_eq (D := D) hi (by omega) hroom hM n
      rw [f1] at g1
      simp only [Option.some.injEq, Except.ok.injEq, Prod.mk.injEq] at g1
      obtain ⟨rfl, rfl⟩ := g1
      simp only [session, f1] at hq
      match hs : session M D p1 rest with
      | none => rw [hs] at hq; cases hq
      | some (.error e) => rw [hs] at hq; cases hq
      | some (.ok (rss, q')) =>
        rw [hs] at hq
        simp only [Option.some.injEq, Except.ok.injEq, Prod.mk.injEq] at hq
        obtain ⟨_, rfl⟩ := hq
        have := ih p1 (k + c.length) g2 (by omega) (by omega) rss q' hs
        omega
  intro h1 c n h2 he rs q hq
  have hl : (fedBytes h).length = (fedBytes h1).length + c.length + (fedBytes h2).length := by
    rw [he]; simp [fedBytes]; omega
  have := key h1 (vecParser M) 0 (Nat.zero_le _) (Nat.zero_le _) (by omega) rs q hq
  omega

example : VecHolds (2 ^ 16 - 1) rawDispatch [([0xb5, 0x62, 1], 0), ([2, 3], 7)] :=
  vecHolds_of_total (by decide) (by decide)

/-- A history in which every iterator is exhausted is within the limits if every single chunk is
(plus the room for one frame). -/
theorem vecHolds_of_exhausted (hM : D.maxPayloadLen + 8 ≤ M) {h : List (Bytes × Nat)}
    (hc : ∀ x ∈ h, x.1.length + D.maxPayloadLen + 8 ≤ M / 2)
    {rss q} (hq : session M D (vecParser M) h = some (.ok (rss, q))) (he : Exhausted rss) :
    VecHolds M D h := by
  have key : ∀ (h : List (Bytes × Nat)) (p : Parser (VecBuf M)),
      LawfulBuffer.Inv M p.buf → p.bufferLen < D.maxPayloadLen + 8 →
      (∀ x ∈ h, x.1.length + D.maxPayloadLen + 8 ≤ M / 2) →
      ∀ rss q, session M D p h = some (.ok (rss, q)) → Exhausted rss →
      ∀ h1 c n h2, h = h1 ++ (c, n) :: h2 → ∀ rs q, session M D p h1 = some (.ok (rs, q)) →
        q.bufferLen + c.length ≤ M / 2 := by
    intro h
    induction h with
    | nil => intro _ _ _ _ _ _ _ _ h1 c n h2 he; simp at he
    | cons x rest ih =>
      intro p hi hl hc rss q hq hex h1 c n h2 he rs q1 hq1
      obtain ⟨c0, n0⟩ := x
      have hc0 := hc (c0, n0) (by simp)
      simp only at hc0
      cases h1 with
      | nil =>
        simp only [session, Option.some.injEq, Except.ok.injEq, Prod.mk.injEq] at hq1
        simp only [List.nil_append, List.cons.injEq, Prod.mk.injEq] at he
        obtain ⟨_, rfl⟩ := hq1
        obtain ⟨⟨rfl, rfl⟩, rfl⟩ := he
        omega
      | cons y h1 =>
        simp only [List.cons_append, List.cons.injEq] at he
        obtain ⟨rfl, rfl⟩ := he
        have hroom : p.bufferLen + c0.length ≤ M / 2 := by omega
        obtain ⟨evs, p1, s, g1, g2, _⟩ := feed_eq (D := D) hi (by omega) hroom hM n0
        simp only [session, g1] at hq hq1
        match hs : session M D p1 (h1 ++ (c, n) :: h2) with
        | none => rw [hs] at hq; cases hq
        | some (.error e) => rw [hs] at hq; cases hq
        | some (.ok (rss', q')) =>
          rw [hs] at hq
          simp only [Option.some.injEq, Except.ok.injEq, Prod.mk.injEq] at hq
          obtain ⟨rfl, rfl⟩ := hq
          match hs1 : session M D p1 h1 with
          | none => rw [hs1] at hq1; cases hq1
          | some (.error e) => rw [hs1] at hq1; cases hq1
          | some (.ok (rss1, q1')) =>
            rw [hs1] at hq1
            simp only [Option.some.injEq, Except.ok.injEq, Prod.mk.injEq] at hq1
            obtain ⟨_, rfl⟩ := hq1
            have hb := c12_bounded_memory (D := D) hM hi c0 (by omega) hroom n0 g1
              (hex _ (by simp))
            exact ih p1 g2 hb (fun x hx => hc x (by simp [hx])) rss' q' hs
              (fun r hr => hex r (by simp [hr])) h1 c n h2 rfl rss1 q1' hs1
  exact key h (vecParser M) (Nat.zero_le _) (by show 0 < _; omega) hc rss q hq he

/-! ## C03 Returned packets are exactly well-formed frames of the stream, in order -/

/-- **C03**, growable buffer, any call pattern: the answers are the translation of decoder reports
whose frames occur in the fed bytes as disjoint contiguous pieces, in this order. -/
theorem c03_vec_packets_embedded (hM : D.maxPayloadLen + 8 ≤ M) (h : List (Bytes × Nat))
    (hv : VecHolds M D h) {rss q} (hq : session M D (vecParser M) h = some (.ok (rss, q))) :
    ∃ evs : List Ev, results rss = evs.map (report D.matchPacket) ∧
      Embeds D.maxPayloadLen (fedBytes h) (packets evs) := by
  obtain ⟨evss, q', h1, h2, h3⟩ := vec_session hv hM
  rw [hq] at h1
  simp only [Option.some.injEq, Except.ok.injEq, Prod.mk.injEq] at h1
  obtain ⟨rfl, rfl⟩ := h1
  exact ⟨reports evss.flatten, results_answers evss,
    hist_embeds (b := []) h3 (.inl (Nat.le_refl _))⟩

/-- **C03**, fixed buffer of at least 5 bytes, iterators exhausted. -/
theorem c03_flb_packets_embedded (hM : D.maxPayloadLen + 8 ≤ M) (backing : Bytes)
    (hb : backing.length ≤ M / 2) (h5 : 5 ≤ backing.length) (h : List (Bytes × Nat))
    (hs : Slices M h) {rss q} (hq : session M D (flbParser M backing) h = some (.ok (rss, q)))
    (he : Exhausted rss) :
    ∃ evs : List Ev, results rss = evs.map (report D.matchPacket) ∧
      Embeds D.maxPayloadLen (fedBytes h) (packets evs) := by
  obtain ⟨evss, q', h1, _, _, h3⟩ := flb_session (D := D) hb hs hM
  rw [hq] at h1
  simp only [Option.some.injEq, Except.ok.injEq, Prod.mk.injEq] at h1
  obtain ⟨rfl, rfl⟩ := h1
  exact ⟨reports evss.flatten, results_answers evss,
    hist_embeds (b := []) h3 (.inr ⟨h5, exhausted_answers he⟩)⟩

/-! ## C49 Fixed buffers and abandoned iterators -/

/-- **C49**, what holds: for every capacity and every call pattern the frames of the answers, written
one after the other, can be obtained from the fed bytes by deleting bytes.  What is missing for the
full claim is contiguity, which is false: `c49_flb_glues_bytes`. -/
theorem c49_flb_frames_sublist_partial (hM : D.maxPayloadLen + 8 ≤ M) (backing : Bytes)
    (hb : backing.length ≤ M / 2) (h : List (Bytes × Nat))
    (hs : Slices M h) {rss q} (hq : session M D (flbParser M backing) h = some (.ok (rss, q))) :
    ∃ evs : List Ev, results rss = evs.map (report D.matchPacket) ∧
      (∀ f ∈ packets evs, f.2.2.length ≤ D.maxPayloadLen) ∧
      ((packets evs).map (fun f => frame f.1 f.2.1 f.2.2)).flatten.Sublist (fedBytes h) := by
  obtain ⟨evss, q', h1, _, _, h3⟩ := flb_session (D := D) hb hs hM
  rw [hq] at h1
  simp only [Option.some.injEq, Except.ok.injEq, Prod.mk.injEq] at h1
  obtain ⟨rfl, rfl⟩ := h1
  obtain ⟨h4, h5⟩ := hist_sublist h3
  exact ⟨reports evss.flatten, results_answers evss, h4,
    ((List.sublist_append_left _ _).trans h5).trans (by rw [List.nil_append]; exact .refl _)⟩

/-- **C49** is false: with a 6-byte buffer an iterator is dropped before `next` is called, the bytes
`99 99` do not fit and vanish, and the next chunk completes a frame that never was in the stream. -/
theorem c49_flb_glues_bytes :
    ∃ q : Parser (FixedLinearBuffer 65535),
      session 65535 rawDispatch (flbParser 65535 [0, 0, 0, 0, 0, 0])
        [([0xb5, 0x62, 5, 1, 0, 0, 0x99, 0x99], 0), ([6, 23], 1)] =
        some (.ok ([[], [some (.ok (5, 1, []))]], q)) ∧
      ∀ gap rest : Bytes, fedBytes [([0xb5, 0x62, 5, 1, 0, 0, 0x99, 0x99], 0), ([6, 23], 1)] ≠
        gap ++ frame 5 1 [] ++ rest := by
  refine ⟨⟨⟨[0xb5, 0x62, 5, 1, 0, 0], 0⟩⟩, ?_, ?_⟩
  · have hc : Parser.consume 65535 (⟨⟨[0xb5, 0x62, 5, 1, 0, 0], 6⟩⟩ : Parser (FixedLinearBuffer 65535))
        [6, 23] = .ok ⟨⟨⟨[0xb5, 0x62, 5, 1, 0, 0], 6⟩, 0, [6, 23], 0⟩⟩ := rfl
    have hn : ParserIter.next 65535 rawDispatch
        (⟨⟨(⟨[0xb5, 0x62, 5, 1, 0, 0], 6⟩ : FixedLinearBuffer 65535), 0, [6, 23], 0⟩⟩) =
        some (.ok (some (.ok (5, 1, [])), ⟨⟨⟨[0xb5, 0x62, 5, 1, 0, 0], 6⟩, 6, [6, 23], 2⟩⟩)) := by
      rw [ParserIter.next.eq_def]
      rfl
    have h0 : feed 65535 rawDispatch (flbParser 65535 [0, 0, 0, 0, 0, 0])
        [0xb5, 0x62, 5, 1, 0, 0, 0x99, 0x99] 0 =
        some (.ok ([], ⟨⟨[0xb5, 0x62, 5, 1, 0, 0], 6⟩⟩)) := rfl
    have h1 : feed 65535 rawDispatch
        (⟨⟨[0xb5, 0x62, 5, 1, 0, 0], 6⟩⟩ : Parser (FixedLinearBuffer 65535)) [6, 23] 1 =
        some (.ok ([some (.ok (5, 1, []))], ⟨⟨[0xb5, 0x62, 5, 1, 0, 0], 0⟩⟩)) := by
      simp only [feed, hc, callNext, hn]
      rfl
    simp only [session, h0, h1]
  · intro gap rest h
    have hi : frame 5 1 [] <:+: fedBytes [([0xb5, 0x62, 5, 1, 0, 0, 0x99, 0x99], 0), ([6, 23], 1)] :=
      ⟨gap, rest, h.symm⟩
    revert hi
    decide

/-- **C49**, where the claim does hold: if every iterator is either exhausted or made for bytes that
fit in the buffer together with those already there (`buffer_len()` plus the length of the chunk is at
most the capacity), then the frames of the answers occur in the fed bytes as disjoint contiguous
pieces, in this order. -/
theorem c49_flb_contiguous_if_room (hM : D.maxPayloadLen + 8 ≤ M) (backing : Bytes)
    (hb : backing.length ≤ M / 2) (h5 : 5 ≤ backing.length) (h : List (Bytes × Nat))
    (hs : Slices M h) (hk : FlbKeeps M D backing h) :
    ∃ rss q, session M D (flbParser M backing) h = some (.ok (rss, q)) ∧
      ∃ evs : List Ev, results rss = evs.map (report D.matchPacket) ∧
        Embeds D.maxPayloadLen (fedBytes h) (packets evs) := by
  obtain ⟨evss, q, h1, h2⟩ := flb_kept hb h5 hs hk hM
  exact ⟨_, q, h1, reports evss.flatten, results_answers evss, histKept_embeds h2⟩

/-- **C49**, under the same condition nothing is lost either: if also every announced frame fits in
the buffer, the answers together with what can be decoded from the bytes kept are the answers of the
reference decoder for all bytes fed. -/
theorem c49_flb_complete_if_room (hM : D.maxPayloadLen + 8 ≤ M) (backing : Bytes)
    (hb : backing.length ≤ M / 2) (h5 : 5 ≤ backing.length) (h : List (Bytes × Nat))
    (hs : Slices M h) (hk : FlbKeeps M D backing h)
    (hf : Fits D.maxPayloadLen backing.length (fedBytes h)) :
    ∃ rss q, session M D (flbParser M backing) h = some (.ok (rss, q)) ∧
      (decode D.maxPayloadLen (fedBytes h)).1.map (report D.matchPacket) =
        results rss ++ (decode D.maxPayloadLen (flbBytes q)).1.map (report D.matchPacket) ∧
      (decode D.maxPayloadLen (fedBytes h)).2 = (decode D.maxPayloadLen (flbBytes q)).2 := by
  obtain ⟨evss, q, h1, h2⟩ := flb_kept hb h5 hs hk hM
  have hd := histKept_decode h2 (by rw [List.nil_append]; exact hf)
  rw [List.nil_append, fed_eq] at hd
  refine ⟨_, q, h1, ?_, ?_⟩
  · rw [hd, results_answers, List.map_append]
  · rw [hd]

/-- A history whose chunks together fit in the buffer is such a history, whatever the calls. -/
theorem flbKeeps_of_total (hM : D.maxPayloadLen + 8 ≤ M) {backing : Bytes}
    (hb : backing.length ≤ M / 2) {h : List (Bytes × Nat)}
    (ht : (fedBytes h).length ≤ backing.length) : FlbKeeps M D backing h := by
  have key : ∀ (h1 : List (Bytes × Nat)) (p : Parser (FixedLinearBuffer M)) (k : Nat),
      LawfulBuffer.Inv M p.buf → p.bufferLen ≤ k → k + (fedBytes h1).length ≤ M / 2 →
      ∀ rs q, session M D p h1 = some (.ok (rs, q)) → q.bufferLen ≤ k + (fedBytes h1).length := by
    intro h1
    induction h1 with
    | nil =>
      intro p k hi hk _ rs q hq
      simp only [session, Option.some.injEq, Except.ok.injEq, Prod.mk.injEq] at hq
      rw [← hq.2]; omega
    | cons x rest ih =>
      intro p k hi hk hl rs q hq
      obtain ⟨c, n⟩ := x
      have hfed : (fedBytes ((c, n) :: rest)).length = c.length + (fedBytes rest).length := by
        simp [fedBytes]
      rw [hfed] at hl ⊢
      obtain ⟨evs, p1, s, g1, g2, g3, g4, g5, g6⟩ := feed_eq (M := M) (D := D) (n := n) hi
        (chunk := c) (by omega) trivial hM
      have hlen : p1.bufferLen ≤ p.bufferLen + c.length := by
        have h1 := (run_suffix g5).length_le
        have h2 := (trim_suffix (LawfulBuffer.contents M p.buf ++ c)).length_le
        have h3 := LawfulBuffer.len_eq hi
        have h4 := LawfulBuffer.len_eq g2
        have h5 : p1.bufferLen = UnderlyingBuffer.len p1.buf := rfl
        have h6 : p.bufferLen = UnderlyingBuffer.len p.buf := rfl
        rw [List.length_append, ← h3] at h2
        rw [g6, List.length_take] at h4
        omega
      simp only [session, g1] at hq
      match hs : session M D p1 rest with
      | none => rw [hs] at hq; cases hq
      | some (.error e) => rw [hs] at hq; cases hq
      | some (.ok (rss, q')) =>
        rw [hs] at hq
        simp only [Option.some.injEq, Except.ok.injEq, Prod.mk.injEq] at hq
        obtain ⟨_, rfl⟩ := hq
        have := ih p1 (k + c.length) g2 (by omega) (by omega) rss q' hs
        omega
  intro h1 c n h2 he rss q rs q' hq _
  have hl : (fedBytes h).length = (fedBytes h1).length + c.length + (fedBytes h2).length := by
    rw [he]; simp [fedBytes]; omega
  have := key h1 (flbParser M backing) 0 ⟨Nat.zero_le _, hb⟩ (Nat.zero_le _) (by omega) rss q hq
  right
  omega

example : FlbKeeps (2 ^ 16 - 1) rawDispatch (List.replicate 20 0)
      [([0xb5, 0x62, 5, 1, 0, 0, 6, 23], 0), ([0xb5, 0x62], 1)] ∧
    Slices (2 ^ 16 - 1) [([0xb5, 0x62, 5, 1, 0, 0, 6, 23], 0), ([0xb5, 0x62], 1)] :=
  ⟨flbKeeps_of_total (by decide) (by decide) (by decide), by unfold Slices; decide⟩

/-- The history of `c49_flb_glues_bytes` is not of this kind: 8 bytes for 6 places. -/
example : ¬ FlbKeeps 65535 rawDispatch [0, 0, 0, 0, 0, 0]
    [([0xb5, 0x62, 5, 1, 0, 0, 0x99, 0x99], 0), ([6, 23], 1)] := by
  intro h
  have := h [] [0xb5, 0x62, 5, 1, 0, 0, 0x99, 0x99] 0 [([6, 23], 1)] rfl [] _ []
    ⟨⟨[0xb5, 0x62, 5, 1, 0, 0], 6⟩⟩ rfl rfl
  rcases this with this | this
  · cases this
  · exact absurd this (by decide)

/-! ## C05 Corrupted input is resynchronised deterministically -/

/-- **C05**, growable buffer: for any stream in any chunks, iterated to exhaustion, the answers are
those of the reference decoder and the bytes kept are its rest. -/
theorem c05_vec_reference_decoder (hM : D.maxPayloadLen + 8 ≤ M) (h : List (Bytes × Nat))
    (hc : ∀ x ∈ h, x.1.length + D.maxPayloadLen + 8 ≤ M / 2)
    {rss q} (hq : session M D (vecParser M) h = some (.ok (rss, q))) (he : Exhausted rss) :
    results rss = (decode D.maxPayloadLen (fedBytes h)).1.map (report D.matchPacket) ∧
      q.buf.bytes = (decode D.maxPayloadLen (fedBytes h)).2 := by
  obtain ⟨evss, q', h1, h2, h3⟩ := vec_session (vecHolds_of_exhausted hM hc hq he) hM
  rw [hq] at h1
  simp only [Option.some.injEq, Except.ok.injEq, Prod.mk.injEq] at h1
  obtain ⟨rfl, rfl⟩ := h1
  have hf : Fits D.maxPayloadLen M ([] ++ fed h) := fits_of_le (by omega) _
  have hdec := hist_decode h3 hf (.inl (Nat.le_refl _))
  have hend := hist_exhausted h3 hf (decode_wait (by rw [scan.eq_def])) (by omega)
    (exhausted_answers he)
  rw [hend, List.nil_append, List.append_nil] at hdec
  rw [results_answers, ← fed_eq, hdec]
  exact ⟨rfl, rfl⟩

/-- **C05**/**C07**, fixed buffer: the same as long as every announced frame fits in the buffer
(one byte less is enough). -/
theorem c05_flb_reference_decoder (hM : D.maxPayloadLen + 8 ≤ M) (backing : Bytes)
    (hb : backing.length ≤ M / 2) (h5 : 5 ≤ backing.length) (h : List (Bytes × Nat))
    (hs : Slices M h) (hf : Fits D.maxPayloadLen backing.length (fedBytes h))
    {rss q} (hq : session M D (flbParser M backing) h = some (.ok (rss, q))) (he : Exhausted rss) :
    results rss = (decode D.maxPayloadLen (fedBytes h)).1.map (report D.matchPacket) ∧
      flbBytes q = (decode D.maxPayloadLen (fedBytes h)).2 := by
  obtain ⟨evss, q', h1, _, _, h3⟩ := flb_session (D := D) hb hs hM
  rw [hq] at h1
  simp only [Option.some.injEq, Except.ok.injEq, Prod.mk.injEq] at h1
  obtain ⟨rfl, rfl⟩ := h1
  have hf : Fits D.maxPayloadLen backing.length ([] ++ fed h) := hf
  have hdec := hist_decode h3 hf (.inr ⟨h5, exhausted_answers he⟩)
  have hend := hist_exhausted h3 hf (decode_wait (by rw [scan.eq_def])) h5
    (exhausted_answers he)
  rw [hend, List.nil_append, List.append_nil] at hdec
  rw [results_answers, ← fed_eq, hdec]
  exact ⟨rfl, rfl⟩

/-! ### The decoder does what the claim says -/

/-- **C05** After a checksum mismatch decoding resumes two bytes after the sync position. -/
theorem c05_resume_after_bad_checksum (maxLen : Nat) (sep : Bytes) (hs : (0xb5 : UInt8) ∉ sep)
    (c i : UInt8) (payload : Bytes) (hp : payload.length ≤ maxLen) (hp' : payload.length ≤ 65535)
    (a b : UInt8) (rest : Bytes)
    (hbad : (a, b) ≠ (ckA (body c i payload), ckB (body c i payload))) :
    decode maxLen (sep ++ [0xb5, 0x62] ++ body c i payload ++ [a, b] ++ rest) =
      (.badChecksum (a, b) (ckA (body c i payload), ckB (body c i payload)) ::
        (decode maxLen (body c i payload ++ [a, b] ++ rest)).1,
       (decode maxLen (body c i payload ++ [a, b] ++ rest)).2) := by
  have e : sep ++ [0xb5, 0x62] ++ body c i payload ++ [a, b] ++ rest =
      sep ++ header c i (UInt8.ofNat (payload.length % 256)) (UInt8.ofNat (payload.length / 256))
        (payload ++ a :: b :: rest) := by simp [header, body]
  have h1 : scan maxLen (sep ++ [0xb5, 0x62] ++ body c i payload ++ [a, b] ++ rest) =
      .cand c i (UInt8.ofNat (payload.length % 256)) (UInt8.ofNat (payload.length / 256))
        (payload ++ a :: b :: rest) := by
    rw [e, scan_sep hs, scan_header, announced_ofNat hp', if_pos hp]
  rw [decode_bad h1 (a := a) (b := b) (after := rest), covered_frame hp']
  · simp [body]
  · rw [announced_ofNat hp', List.drop_left']; rfl
  · rw [covered_frame hp']
    rintro ⟨rfl, rfl⟩
    exact hbad rfl

example : (0xb5 : UInt8) ∉ ([1, 2] : Bytes) ∧ ([7] : Bytes).length ≤ 8176 ∧
    ((0 : UInt8), (0 : UInt8)) ≠ (ckA (body 5 1 [7]), ckB (body 5 1 [7])) := by decide

/-- **C05** A header announcing more than the maximum is skipped by two bytes without a report. -/
theorem c05_too_long_is_skipped (maxLen : Nat) (sep : Bytes) (hs : (0xb5 : UInt8) ∉ sep)
    (c i lo hi : UInt8) (rest : Bytes) (hl : maxLen < lo.toNat + 256 * hi.toNat) :
    decode maxLen (sep ++ [0xb5, 0x62, c, i, lo, hi] ++ rest) =
      decode maxLen ([c, i, lo, hi] ++ rest) := by
  apply decode_congr
  have e : sep ++ [0xb5, 0x62, c, i, lo, hi] ++ rest = sep ++ header c i lo hi rest := by
    simp [header]
  have : ¬ announced lo hi ≤ maxLen := by simp only [announced]; omega
  rw [e, scan_sep hs, scan_header, if_neg this]
  rfl

example : 8176 < (0xff : UInt8).toNat + 256 * (0xff : UInt8).toNat := by decide

/-- **C05** A valid frame that follows is found. -/
theorem c05_next_frame_found (maxLen : Nat) (sep : Bytes) (hs : (0xb5 : UInt8) ∉ sep)
    (c i : UInt8) (payload rest : Bytes) (hp : payload.length ≤ maxLen)
    (hp' : payload.length ≤ 65535) :
    decode maxLen (sep ++ frame c i payload ++ rest) =
      (.packet c i payload :: (decode maxLen rest).1, (decode maxLen rest).2) :=
  decode_frame hs hp hp'

/-! ## C06 Chunk boundaries do not matter -/

/-- **C06** Two histories that feed the same bytes give the same answers and keep the same bytes. -/
theorem c06_chunking_irrelevant (hM : D.maxPayloadLen + 8 ≤ M) (h h' : List (Bytes × Nat))
    (hfed : fedBytes h = fedBytes h')
    (hc : ∀ x ∈ h, x.1.length + D.maxPayloadLen + 8 ≤ M / 2)
    (hc' : ∀ x ∈ h', x.1.length + D.maxPayloadLen + 8 ≤ M / 2)
    {rss q rss' q'} (hq : session M D (vecParser M) h = some (.ok (rss, q)))
    (hq' : session M D (vecParser M) h' = some (.ok (rss', q')))
    (he : Exhausted rss) (he' : Exhausted rss') :
    results rss = results rss' ∧ q = q' := by
  obtain ⟨h1, h2⟩ := c05_vec_reference_decoder hM h hc hq he
  obtain ⟨h3, h4⟩ := c05_vec_reference_decoder hM h' hc' hq' he'
  refine ⟨by rw [h1, h3, hfed], ?_⟩
  have : q.buf.bytes = q'.buf.bytes := by rw [h2, h4, hfed]
  cases q with | mk b => cases q' with | mk b' => cases b; cases b'; simp_all

example : fedBytes [([0xb5], 5), ([], 9), ([0x62, 1], 4)] = fedBytes [([0xb5, 0x62, 1], 3)] := by
  decide

/-! ## C07 A fixed buffer that is large enough behaves like the growable one -/

/-- **C07** -/
theorem c07_large_flb_equals_vec (hM : D.maxPayloadLen + 8 ≤ M) (backing : Bytes)
    (hb : backing.length ≤ M / 2) (hcap : D.maxPayloadLen + 7 ≤ backing.length)
    (h h' : List (Bytes × Nat)) (hfed : fedBytes h = fedBytes h') (hs : Slices M h)
    (hc' : ∀ x ∈ h', x.1.length + D.maxPayloadLen + 8 ≤ M / 2)
    {rss q rss' q'} (hq : session M D (flbParser M backing) h = some (.ok (rss, q)))
    (hq' : session M D (vecParser M) h' = some (.ok (rss', q')))
    (he : Exhausted rss) (he' : Exhausted rss') :
    results rss = results rss' ∧ flbBytes q = q'.buf.bytes := by
  obtain ⟨h1, h2⟩ := c05_flb_reference_decoder hM backing hb (by omega) h hs
    (fits_of_le hcap _) hq he
  obtain ⟨h3, h4⟩ := c05_vec_reference_decoder hM h' hc' hq' he'
  exact ⟨by rw [h1, h3, hfed], by rw [h2, h4, hfed]⟩

example : (List.replicate 8183 (0 : UInt8)).length ≤ (2 ^ 32 - 1) / 2 ∧
    rawDispatch.maxPayloadLen + 7 ≤ (List.replicate 8183 (0 : UInt8)).length := by
  rw [List.length_replicate]; decide

/-! ## C04 A clean stream is decoded completely -/

/-- **C04**, growable buffer. -/
theorem c04_vec_clean_stream (hM : D.maxPayloadLen + 8 ≤ M) (hm : D.maxPayloadLen ≤ 65535)
    (items : List (Bytes × UInt8 × UInt8 × Bytes)) (last : Bytes)
    (hsep : ∀ x ∈ items, (0xb5 : UInt8) ∉ x.1) (hlast : (0xb5 : UInt8) ∉ last)
    (hp : ∀ x ∈ items, x.2.2.2.length ≤ D.maxPayloadLen)
    (h : List (Bytes × Nat)) (hfed : fedBytes h = cleanStream items last)
    (hc : ∀ x ∈ h, x.1.length + D.maxPayloadLen + 8 ≤ M / 2)
    {rss q} (hq : session M D (vecParser M) h = some (.ok (rss, q))) (he : Exhausted rss) :
    results rss = items.map (fun x => D.matchPacket x.2.1 x.2.2.1 x.2.2.2) ∧
      q.isBufferEmpty = true := by
  obtain ⟨h1, h2⟩ := c05_vec_reference_decoder hM h hc hq he
  rw [hfed, decode_clean hsep hlast hp hm] at h1 h2
  refine ⟨by rw [h1, List.map_map]; rfl, ?_⟩
  show (q.buf.bytes.length == 0) = true
  rw [h2]; rfl

example : fedBytes [(frame 5 1 [6, 0] ++ [13], 3), ([10] ++ frame 5 0 [6, 1], 9)] =
    cleanStream [([], 5, 1, [6, 0]), ([13, 10], 5, 0, [6, 1])] [] := by decide

/-- **C04**, fixed buffer that can hold each of the frames but for its last byte. -/
theorem c04_flb_clean_stream (hM : D.maxPayloadLen + 8 ≤ M) (hm : D.maxPayloadLen ≤ 65535)
    (backing : Bytes) (hb : backing.length ≤ M / 2) (h5 : 5 ≤ backing.length)
    (items : List (Bytes × UInt8 × UInt8 × Bytes)) (last : Bytes)
    (hsep : ∀ x ∈ items, (0xb5 : UInt8) ∉ x.1) (hlast : (0xb5 : UInt8) ∉ last)
    (hp : ∀ x ∈ items, x.2.2.2.length ≤ D.maxPayloadLen)
    (hcap : ∀ x ∈ items, (frame x.2.1 x.2.2.1 x.2.2.2).length ≤ backing.length + 1)
    (h : List (Bytes × Nat)) (hfed : fedBytes h = cleanStream items last) (hs : Slices M h)
    {rss q} (hq : session M D (flbParser M backing) h = some (.ok (rss, q))) (he : Exhausted rss) :
    results rss = items.map (fun x => D.matchPacket x.2.1 x.2.2.1 x.2.2.2) ∧
      q.isBufferEmpty = true := by
  have hf : Fits D.maxPayloadLen backing.length (fedBytes h) := by
    intro n hn
    rw [hfed] at hn
    obtain ⟨x, hx, rfl⟩ := announces_clean hsep hlast hp hm hn
    have := hcap x hx
    simp [frame, body] at this
    omega
  obtain ⟨h1, h2⟩ := c05_flb_reference_decoder hM backing hb h5 h hs hf hq he
  obtain ⟨_, q', g1, g2, g3, _⟩ := flb_session (D := D) hb hs hM
  rw [hq] at g1
  simp only [Option.some.injEq, Except.ok.injEq, Prod.mk.injEq] at g1
  obtain ⟨_, rfl⟩ := g1
  rw [hfed, decode_clean hsep hlast hp hm] at h1 h2
  refine ⟨by rw [h1, List.map_map]; rfl, ?_⟩
  have hl := congrArg List.length h2
  simp only [flbBytes, List.length_take, List.length_nil] at hl
  have : q.buf.len = 0 := by omega
  show (q.buf.len == 0) = true
  rw [this]; rfl

example : ∀ x ∈ [(([] : Bytes), (5 : UInt8), (1 : UInt8), ([6, 0] : Bytes))],
    (frame x.2.1 x.2.2.1 x.2.2.2).length ≤ (List.replicate 9 (0 : UInt8)).length + 1 := by decide

/-! ## C08 OutOfMemory is reported only for packets that do not fit -/

/-- **C08** An `OutOfMemory { required_size }` answer points at a header in the pending bytes that
announces `required_size - 2` payload bytes, the frame is larger than the capacity, and the answers
that follow are those for the bytes from two bytes after the sync position on.
`hD`: the dispatch itself does not answer `OutOfMemory` (true for the crate, C09). -/
theorem c08_oom_only_if_too_large {T : Type} [UnderlyingBuffer T] [LawfulBuffer M T] {p : Parser T}
    (hM : D.maxPayloadLen + 8 ≤ M) (hi : LawfulBuffer.Inv M p.buf) (chunk : Bytes)
    (hc : chunk.length ≤ M / 2) (hr : LawfulBuffer.Room M T (p.bufferLen + chunk.length)) (n : Nat)
    (hD : ∀ c i pl k, D.matchPacket c i pl ≠ .error (.outOfMemory k))
    {pre post : List (Option (Except ParserError P))} {k : Nat} {q : Parser T}
    (hf : feed M D p chunk n = some (.ok (pre ++ some (.error (.outOfMemory k)) :: post, q))) :
    ∃ gap c i lo hi tail evs s,
      LawfulBuffer.contents M p.buf ++ chunk = gap ++ header c i lo hi tail ∧
      k = announced lo hi + 2 ∧
      maxCapacity p.buf < announced lo hi + 8 ∧
      post = evs.map (Option.map (report D.matchPacket)) ∧
      Run D.maxPayloadLen (maxCapacity p.buf) (c :: i :: lo :: hi :: tail) evs s := by
  have hlen := LawfulBuffer.len_eq hi
  simp only [bufferLen, hlen] at hr
  obtain ⟨evs, q2, s, f1, f2, f3, f4, f5, f6⟩ := feed_eq (D := D) hi hc hr hM n
  rw [hf] at f1
  simp only [Option.some.injEq, Except.ok.injEq, Prod.mk.injEq] at f1
  obtain ⟨he, _⟩ := f1
  have key : ∀ (evs : List (Option Ev)) (x s : Bytes) pre post,
      Run D.maxPayloadLen (maxCapacity p.buf) x evs s →
      pre ++ some (.error (.outOfMemory k)) :: post = answers D evs →
      ∃ gap c i lo hi tail evs s, x = gap ++ header c i lo hi tail ∧
        k = announced lo hi + 2 ∧ maxCapacity p.buf < announced lo hi + 8 ∧
        post = evs.map (Option.map (report D.matchPacket)) ∧
        Run D.maxPayloadLen (maxCapacity p.buf) (c :: i :: lo :: hi :: tail) evs s := by
    intro evs x s pre post hrun
    induction hrun generalizing pre post with
    | nil => intro h; simp at h
    | @cons s0 s1 s2 ev evs hst hrun ih =>
      intro h
      cases pre with
      | nil =>
        simp only [List.nil_append, answers, List.map_cons, List.cons.injEq] at h
        obtain ⟨h1, h2⟩ := h
        have key2 : ∀ {c i lo hi tail}, scan D.maxPayloadLen s0 = .cand c i lo hi tail →
            ∃ gap, s0 = gap ++ header c i lo hi tail := fun h => by
          obtain ⟨g, hg⟩ := (scan_suffix _ s0).2 _ _ _ _ _ h
          exact ⟨g, hg.symm⟩
        cases hst with
        | wait => simp at h1
        | incomplete => simp at h1
        | @noRoom c i lo hi tail hsc hl hcp =>
          obtain ⟨gap, hgap⟩ := key2 hsc
          simp only [Option.map_some, Option.some.injEq, report, Except.error.injEq,
            ParserError.outOfMemory.injEq] at h1
          refine ⟨gap, c, i, lo, hi, tail, evs, s2, hgap, h1, ?_, h2, hrun⟩
          simp [header] at hcp
          omega
        | @noRoomComplete c i lo hi tail hsc hl hcp =>
          obtain ⟨gap, hgap⟩ := key2 hsc
          simp only [Option.map_some, Option.some.injEq, report, Except.error.injEq,
            ParserError.outOfMemory.injEq] at h1
          exact ⟨gap, c, i, lo, hi, tail, evs, s2, hgap, h1, by omega, h2, hrun⟩
        | packet =>
          simp only [Option.map_some, Option.some.injEq, report] at h1
          exact absurd h1.symm (hD _ _ _ _)
        | bad => simp [report] at h1
      | cons r pre =>
        simp only [List.cons_append, answers, List.map_cons, List.cons.injEq] at h
        obtain ⟨gap, c, i, lo, hi, tail, evs', s', e1, e2⟩ := ih pre post h.2
        obtain ⟨g, hg⟩ := step_suffix hst
        exact ⟨g ++ gap, c, i, lo, hi, tail, evs', s', by rw [← hg, e1]; simp, e2⟩
  obtain ⟨gap, c, i, lo, hi, tail, evs', s', e1, e2⟩ := key evs _ s pre post f5 he
  obtain ⟨g, hg⟩ := trim_suffix (LawfulBuffer.contents M p.buf ++ chunk)
  exact ⟨g ++ gap, c, i, lo, hi, tail, evs', s', by rw [← hg, e1]; simp, e2⟩

/-- **C08** With a `Vec` the answer `OutOfMemory` never occurs, whatever the call pattern. -/
theorem c08_vec_never_oom (hM : D.maxPayloadLen + 8 ≤ M) (h : List (Bytes × Nat))
    (hD : ∀ c i pl k, D.matchPacket c i pl ≠ .error (.outOfMemory k))
    (hv : VecHolds M D h) {rss q} (hq : session M D (vecParser M) h = some (.ok (rss, q)))
    (k : Nat) : ¬ HasError rss (.outOfMemory k) := by
  obtain ⟨evss, q', h1, h2, h3⟩ := vec_session hv hM
  rw [hq] at h1
  simp only [Option.some.injEq, Except.ok.injEq, Prod.mk.injEq] at h1
  obtain ⟨rfl, rfl⟩ := h1
  have hdec := hist_decode h3 (fits_of_le (by omega) _) (.inl (Nat.le_refl _))
  have hno : ∀ (s : Bytes) ev, ev ∈ (decode D.maxPayloadLen s).1 → ∀ m, ev ≠ .tooLarge m := by
    intro s
    generalize hn : s.length = n
    induction n using Nat.strongRecOn generalizing s with
    | ind n ih =>
      subst hn
      rcases decode_cases D.maxPayloadLen s with
        ⟨r, h0⟩ | ⟨c, i, lo, hi, tail, h0, h1 | ⟨x, y, after, h1, ⟨h2, h3⟩ | h2⟩⟩
      · rw [decode_wait h0]; simp
      · rw [decode_incomplete h0 h1]; simp
      · have := cand_length h0
        have := after_length h1
        rw [decode_packet h0 h1 h2 h3]
        intro ev hev m
        rcases List.mem_cons.mp hev with rfl | hev
        · simp
        · exact ih _ (by omega) after rfl ev hev m
      · have := cand_length h0
        rw [decode_bad h0 h1 h2]
        intro ev hev m
        rcases List.mem_cons.mp hev with rfl | hev
        · simp
        · exact ih _ (by simp; omega) _ rfl ev hev m
  intro herr
  simp only [HasError, results_answers, List.mem_map] at herr
  obtain ⟨ev, hev, he⟩ := herr
  have hmem : ev ∈ (decode D.maxPayloadLen ([] ++ fed h)).1 := by
    rw [hdec]; exact List.mem_append_left _ hev
  cases ev with
  | packet c i pl => exact hD _ _ _ _ he
  | badChecksum => simp [report] at he
  | tooLarge m => exact hno _ _ hmem m rfl

example (c i : UInt8) (pl : Bytes) (k : Nat) :
    rawDispatch.matchPacket c i pl ≠ .error (.outOfMemory k) := by simp [rawDispatch]

/-- **C08** A completely available frame is delivered at once if its payload and checksum fit in the
buffer. -/
theorem c08_available_frame_delivered {T : Type} [UnderlyingBuffer T] [LawfulBuffer M T]
    {p : Parser T} (hM : D.maxPayloadLen + 8 ≤ M) (hm : D.maxPayloadLen ≤ 65535)
    (hi : LawfulBuffer.Inv M p.buf) (chunk : Bytes)
    (hc : chunk.length ≤ M / 2) (hr : LawfulBuffer.Room M T (p.bufferLen + chunk.length)) (n : Nat)
    (sep : Bytes) (hsep : (0xb5 : UInt8) ∉ sep) (c i : UInt8) (payload rest : Bytes)
    (hp : payload.length ≤ D.maxPayloadLen) (hcap : payload.length + 2 ≤ maxCapacity p.buf)
    (hall : LawfulBuffer.contents M p.buf ++ chunk = sep ++ frame c i payload ++ rest) :
    ∃ rs q, feed M D p chunk (n + 1) = some (.ok (some (D.matchPacket c i payload) :: rs, q)) := by
  have hlen := LawfulBuffer.len_eq hi
  simp only [bufferLen, hlen] at hr
  obtain ⟨evs, q, s, f1, f2, f3, f4, f5, f6⟩ := feed_eq (D := D) hi hc hr hM (n + 1)
  have hsc : scan D.maxPayloadLen (trim (LawfulBuffer.contents M p.buf ++ chunk)) =
      .cand c i (UInt8.ofNat (payload.length % 256)) (UInt8.ofNat (payload.length / 256))
        (payload ++ ckA (body c i payload) :: ckB (body c i payload) :: rest) := by
    rw [scan_trim, hall, List.append_assoc]
    exact (scan_sep hsep _).trans (scan_frame hp (by omega))
  have hann : announced (UInt8.ofNat (payload.length % 256)) (UInt8.ofNat (payload.length / 256)) =
      payload.length := announced_ofNat (by omega)
  cases f5 with
  | nil => simp at f4
  | @cons _ s1 _ ev evs hst hrun =>
    have : ev = some (.packet c i payload) := by
      cases hst with
      | wait h => rw [hsc] at h; cases h
      | incomplete h h2 => rw [hsc] at h; cases h; rw [hann] at h2; simp at h2; omega
      | noRoom h h2 => rw [hsc] at h; cases h; rw [hann] at h2; simp at h2; omega
      | noRoomComplete h h2 h3 => rw [hsc] at h; cases h; rw [hann] at h3; omega
      | packet h h2 =>
        rw [hsc] at h; cases h
        rw [hann, List.take_left' rfl]
      | bad h h2 h3 =>
        rw [hsc] at h; cases h
        rw [hann, List.drop_left' rfl] at h2
        injection h2 with h2 h4
        injection h4 with h4 h5
        rw [covered_frame (by omega)] at h3
        exact absurd ⟨h2.symm, h4.symm⟩ h3
    subst this
    exact ⟨answers D evs, q, f1⟩

/-! ## C10 Abandoning an iterator loses nothing with a growable buffer -/

/-- **C10** At any time the answers given so far followed by what the reference decoder gives for
the bytes still held is the decoding of everything fed, and so is the final rest. -/
theorem c10_abandoning_loses_nothing (hM : D.maxPayloadLen + 8 ≤ M) (h : List (Bytes × Nat))
    (hv : VecHolds M D h) {rss q} (hq : session M D (vecParser M) h = some (.ok (rss, q))) :
    (decode D.maxPayloadLen (fedBytes h)).1.map (report D.matchPacket) =
        results rss ++ (decode D.maxPayloadLen q.buf.bytes).1.map (report D.matchPacket) ∧
      (decode D.maxPayloadLen (fedBytes h)).2 = (decode D.maxPayloadLen q.buf.bytes).2 := by
  obtain ⟨evss, q', h1, h2, h3⟩ := vec_session hv hM
  rw [hq] at h1
  simp only [Option.some.injEq, Except.ok.injEq, Prod.mk.injEq] at h1
  obtain ⟨rfl, rfl⟩ := h1
  have hdec := hist_decode h3 (fits_of_le (by omega) _) (.inl (Nat.le_refl _))
  rw [List.nil_append, fed_eq] at hdec
  rw [hdec, results_answers]
  exact ⟨by rw [List.map_append], rfl⟩

/-- **C10** If the last iterator is exhausted, everything has been returned, whatever happened to
the iterators before. -/
theorem c10_complete_after_final_exhaustion (hM : D.maxPayloadLen + 8 ≤ M) (h : List (Bytes × Nat))
    (c : Bytes) (n : Nat) (hv : VecHolds M D (h ++ [(c, n)])) {rss rs q}
    (hq : session M D (vecParser M) (h ++ [(c, n)]) = some (.ok (rss ++ [rs], q)))
    (hn : none ∈ rs) :
    results (rss ++ [rs]) =
        (decode D.maxPayloadLen (fedBytes h ++ c)).1.map (report D.matchPacket) ∧
      q.buf.bytes = (decode D.maxPayloadLen (fedBytes h ++ c)).2 := by
  have hfed : fedBytes (h ++ [(c, n)]) = fedBytes h ++ c := by simp [fedBytes]
  obtain ⟨h1, h2⟩ := c10_abandoning_loses_nothing hM _ hv hq
  rw [hfed] at h1 h2
  -- the last chunk
  obtain ⟨evss0, q0, g1, g2, g3⟩ := vec_session (D := D) (h := h) (by
    intro h1 c' n' h2 he rs q hq
    exact hv h1 c' n' (h2 ++ [(c, n)]) (by rw [he]; simp) rs q hq) hM
  have hroom := hv h c n [] rfl _ _ g1
  have hi0 : LawfulBuffer.Inv M q0.buf := g2
  obtain ⟨evs, q1, s, f1, f2, f3, f4, f5, f6⟩ := feed_eq (D := D) hi0 (chunk := c) (by omega)
    hroom hM n
  have hs := session_append (h2 := [(c, n)]) g1
  rw [hq] at hs
  simp only [session, f1, Option.some.injEq, Except.ok.injEq, Prod.mk.injEq] at hs
  obtain ⟨hs1, rfl⟩ := hs
  have hl0 : rss.length = (evss0.map (answers D)).length := by
    have := congrArg List.length hs1
    simpa using this
  obtain ⟨_, hs2⟩ := List.append_inj hs1 hl0
  simp only [List.cons.injEq, and_true] at hs2
  have hmem : none ∈ evs := by rw [← none_mem_answers (D := D), ← hs2]; exact hn
  have hfit : Fits D.maxPayloadLen M (trim (q0.buf.bytes ++ c)) := fits_of_le (by omega) _
  obtain ⟨_, hend⟩ := run_exhausted_decode hfit f5 hmem
  have hsl : s.length ≤ M := by
    have h1 := (run_suffix f5).length_le
    have h2 := (trim_suffix (LawfulBuffer.contents M q0.buf ++ c)).length_le
    rw [List.length_append] at h2
    have h3 : (LawfulBuffer.contents M q0.buf).length + c.length ≤ M / 2 := hroom
    omega
  have hqb : q.buf.bytes = s := by
    show LawfulBuffer.contents M q.buf = s
    rw [f6, List.take_of_length_le]
    exact hsl
  rw [hqb, hend] at h1 h2
  exact ⟨by rw [h1]; simp, by rw [hqb, h2]⟩

/-! ## C13 `buffer_len` and `is_buffer_empty` report the undecoded tail -/

/-- **C13** `is_buffer_empty` is `buffer_len == 0`. -/
theorem c13_empty_iff_len_zero {T : Type} [UnderlyingBuffer T] (p : Parser T) :
    p.isBufferEmpty = true ↔ p.bufferLen = 0 := by
  simp [isBufferEmpty, bufferLen, UnderlyingBuffer.isEmpty]

/-- **C13** After exhausted iterators the buffer is the undecoded rest of the stream: a suffix of
what was fed, empty or starting with a sync byte. -/
theorem c13_buffer_is_undecoded_suffix (hM : D.maxPayloadLen + 8 ≤ M) (h : List (Bytes × Nat))
    (hc : ∀ x ∈ h, x.1.length + D.maxPayloadLen + 8 ≤ M / 2)
    {rss q} (hq : session M D (vecParser M) h = some (.ok (rss, q))) (he : Exhausted rss) :
    q.bufferLen = (decode D.maxPayloadLen (fedBytes h)).2.length ∧
      q.buf.bytes <:+ fedBytes h ∧ (q.buf.bytes = [] ∨ ∃ t, q.buf.bytes = 0xb5 :: t) := by
  obtain ⟨_, h2⟩ := c05_vec_reference_decoder hM h hc hq he
  refine ⟨by rw [← h2]; rfl, ?_⟩
  rw [h2]
  have key : ∀ s : Bytes, (decode D.maxPayloadLen s).2 <:+ s ∧
      ((decode D.maxPayloadLen s).2 = [] ∨ ∃ t, (decode D.maxPayloadLen s).2 = 0xb5 :: t) := by
    intro s
    generalize hn : s.length = n
    induction n using Nat.strongRecOn generalizing s with
    | ind n ih =>
      subst hn
      have hsuf := scan_suffix D.maxPayloadLen s
      rcases decode_cases D.maxPayloadLen s with
        ⟨r, h0⟩ | ⟨c, i, lo, hi, tail, h0, h1 | ⟨x, y, after, h1, ⟨h2, h3⟩ | h2⟩⟩
      · rw [decode_wait h0]; exact hsuf.1 _ h0
      · rw [decode_incomplete h0 h1]; exact ⟨hsuf.2 _ _ _ _ _ h0, .inr ⟨_, rfl⟩⟩
      · have := cand_length h0
        have := after_length h1
        rw [decode_packet h0 h1 h2 h3]
        obtain ⟨i1, i2⟩ := ih _ (by omega) after rfl
        exact ⟨i1.trans (step_suffix (cap := 0) (.packet h0 h1 h2 h3)), i2⟩
      · have := cand_length h0
        rw [decode_bad h0 h1 h2]
        obtain ⟨i1, i2⟩ := ih _ (by simp; omega) (c :: i :: lo :: hi :: tail) rfl
        exact ⟨i1.trans (step_suffix (cap := 0) (.bad h0 h1 h2)), i2⟩
  exact key _

/-- **C13** If the iterator is dropped without a `next` call, the buffer is the old content plus the
chunk, minus what precedes the first sync byte if there is one. -/
theorem c13_drop_without_next (hM : D.maxPayloadLen + 8 ≤ M) (p : Parser (VecBuf M)) (c : Bytes)
    (hroom : p.bufferLen + c.length ≤ M / 2) :
    ∃ q, feed M D p c 0 = some (.ok ([], q)) ∧
      q.buf.bytes = if (0xb5 : UInt8) ∈ p.buf.bytes ++ c
        then (p.buf.bytes ++ c).dropWhile (· ≠ 0xb5) else p.buf.bytes ++ c := by
  have hi : LawfulBuffer.Inv M p.buf := by
    show p.buf.bytes.length ≤ M / 2
    have : p.bufferLen = p.buf.bytes.length := rfl
    omega
  obtain ⟨evs, q, s, f1, f2, f3, f4, f5, f6⟩ := feed_eq (D := D) hi (by omega) hroom hM 0
  cases f5 with
  | cons => simp at f4
  | nil =>
    refine ⟨q, f1, ?_⟩
    show LawfulBuffer.contents M q.buf = trim (p.buf.bytes ++ c)
    rw [f6, List.take_of_length_le]
    · rfl
    · have h2 := (trim_suffix (LawfulBuffer.contents M p.buf ++ c)).length_le
      rw [List.length_append] at h2
      have h3 : (LawfulBuffer.contents M p.buf).length + c.length ≤ M / 2 := hroom
      have h4 : maxCapacity p.buf = M := rfl
      omega

end Ublox.Props
