import Verif.Lemmas.Api

/-!
# C01, C02, C11, C12: safety, progress and bounds of the streaming parser
-/

namespace Ublox.Props

open Spec Parser
open UnderlyingBuffer (maxCapacity)

variable {P : Type} {M : Nat} {D : Dispatch P}

/-- A dispatch for the examples: every frame is returned as it is. -/
def rawDispatch : Dispatch (UInt8 × UInt8 × Bytes) := ⟨fun c i p => .ok (c, i, p), 8176⟩

/-! ## C01 Feeding the parser never panics -/

/-- **C01**, fixed buffer of any capacity: whatever is fed, in whatever chunks, with any number of
`next` calls per chunk, and whether the iterators are dropped or leaked: every call terminates
without a panic.  (`/ 2`: Rust slices have at most `isize::MAX` bytes.) -/
theorem c01_flb_no_panic (hM : D.maxPayloadLen + 8 ≤ M) (backing : Bytes)
    (hb : backing.length ≤ M / 2) (h : List (Bytes × Nat × Bool))
    (hs : ∀ x ∈ h, x.1.length ≤ M / 2) :
    ∃ rss q, sessionLeak M D (flbParser M backing) h = some (.ok (rss, q)) := by
  have key : ∀ (h : List (Bytes × Nat × Bool)) (p : Parser (FixedLinearBuffer M)),
      LawfulBuffer.Inv M p.buf → (∀ x ∈ h, x.1.length ≤ M / 2) →
      ∃ rss q, sessionLeak M D p h = some (.ok (rss, q)) := by
    intro h
    induction h with
    | nil => exact fun p _ _ => ⟨[], p, rfl⟩
    | cons x rest ih =>
      intro p hi hs
      obtain ⟨c, n, l⟩ := x
      obtain ⟨rs, p1, h1, h2⟩ := feedLeak_ok (D := D) hi (hs (c, n, l) (by simp))
        (by exact trivial) hM n l
      obtain ⟨rss, q, h3⟩ := ih p1 h2 fun x hx => hs x (by simp [hx])
      exact ⟨rs :: rss, q, by simp only [sessionLeak, h1, h3]⟩
  exact key h _ ⟨Nat.zero_le _, hb⟩ hs

example : rawDispatch.maxPayloadLen + 8 ≤ 2 ^ 16 - 1 ∧ ([] : Bytes).length ≤ (2 ^ 16 - 1) / 2 ∧
    ∀ x ∈ [(([0xb5, 0x62, 1] : Bytes), 3, true), ([], 0, false)], x.1.length ≤ (2 ^ 16 - 1) / 2 := by
  decide

/-- **C01**, growable buffer: the only way to make it panic is to have the `Vec` hold more than
`isize::MAX` bytes, at a `consume` that is pointed out by the theorem. -/
theorem c01_vec_no_panic (hM : D.maxPayloadLen + 8 ≤ M) (h : List (Bytes × Nat × Bool)) :
    (∃ rss q, sessionLeak M D (vecParser M) h = some (.ok (rss, q))) ∨
    (∃ h1 c n l h2 rss q, h = h1 ++ (c, n, l) :: h2 ∧
      sessionLeak M D (vecParser M) h1 = some (.ok (rss, q)) ∧
      M / 2 < q.bufferLen + c.length) := by
  have key : ∀ (h : List (Bytes × Nat × Bool)) (p : Parser (VecBuf M)),
      LawfulBuffer.Inv M p.buf →
      (∃ rss q, sessionLeak M D p h = some (.ok (rss, q))) ∨
      (∃ h1 c n l h2 rss q, h = h1 ++ (c, n, l) :: h2 ∧
        sessionLeak M D p h1 = some (.ok (rss, q)) ∧ M / 2 < q.bufferLen + c.length) := by
    intro h
    induction h with
    | nil => exact fun p _ => .inl ⟨[], p, rfl⟩
    | cons x rest ih =>
      intro p hi
      obtain ⟨c, n, l⟩ := x
      by_cases hroom : p.bufferLen + c.length ≤ M / 2
      · obtain ⟨rs, p1, h1, h2⟩ := feedLeak_ok (D := D) hi (by omega) hroom hM n l
        rcases ih p1 h2 with ⟨rss, q, h3⟩ | ⟨g1, c', n', l', g2, rss, q, e1, e2, e3⟩
        · exact .inl ⟨rs :: rss, q, by simp only [sessionLeak, h1, h3]⟩
        · exact .inr ⟨(c, n, l) :: g1, c', n', l', g2, rs :: rss, q, by rw [e1]; rfl,
            by simp only [sessionLeak, h1, e2], e3⟩
      · exact .inr ⟨[], c, n, l, rest, [], p, rfl, rfl, by omega⟩
  exact key h _ (Nat.zero_le _)

/-- **C01**, growable buffer, endless streams: if every iterator is asked often enough to be
exhausted and no single chunk is astronomically large, nothing ever panics, however many chunks
there are. -/
theorem c01_vec_endless (hM : D.maxPayloadLen + 8 ≤ M) (h : List (Bytes × Nat))
    (hc : ∀ x ∈ h, x.1.length + D.maxPayloadLen + 8 ≤ M / 2)
    (hn : ∀ x ∈ h, x.1.length + D.maxPayloadLen + 8 ≤ 2 * x.2) :
    ∃ rss q, session M D (vecParser M) h = some (.ok (rss, q)) := by
  have key : ∀ (h : List (Bytes × Nat)) (p : Parser (VecBuf M)),
      p.bufferLen < D.maxPayloadLen + 8 → LawfulBuffer.Inv M p.buf →
      (∀ x ∈ h, x.1.length + D.maxPayloadLen + 8 ≤ M / 2) →
      (∀ x ∈ h, x.1.length + D.maxPayloadLen + 8 ≤ 2 * x.2) →
      ∃ rss q, session M D p h = some (.ok (rss, q)) := by
    intro h
    induction h with
    | nil => exact fun p _ _ _ _ => ⟨[], p, rfl⟩
    | cons x rest ih =>
      intro p hl hi hc hn
      obtain ⟨c, n⟩ := x
      have hc0 := hc (c, n) (by simp)
      have hn0 := hn (c, n) (by simp)
      simp only at hc0 hn0
      have hroom : p.bufferLen + c.length ≤ M / 2 := by omega
      obtain ⟨evs, p1, s, f1, f2, f3, f4, f5, f6⟩ := feed_eq (D := D) hi (by omega) hroom hM n
      have hnone : none ∈ evs := by
        apply Decidable.byContradiction
        intro hno
        have h1 := run_length f5
        have h2 := (trim_suffix (p.buf.bytes ++ c)).length_le
        have h3 : (reports evs).length = evs.length := by
          unfold reports
          clear f1 f5 f4 h1
          induction evs with
          | nil => rfl
          | cons e es ih2 =>
            cases e with
            | none => simp at hno
            | some e =>
              have : none ∉ es := by intro h; exact hno (by simp [h])
              simpa using ih2 this
        have h4 : LawfulBuffer.contents M p.buf = p.buf.bytes := rfl
        have h5 : p.bufferLen = p.buf.bytes.length := rfl
        rw [h4] at h1
        simp only [List.length_append] at h2
        omega
      obtain ⟨_, _, _, _, _, _, _, e5⟩ := run_exhausted f5 hnone
      have hlen := (step_none_length e5).2.1
      have hl1 : p1.bufferLen < D.maxPayloadLen + 8 := by
        show (LawfulBuffer.contents M p1.buf).length < _
        rw [f6, List.length_take]
        omega
      obtain ⟨rss, q, h3⟩ := ih p1 hl1 f2 (fun x hx => hc x (by simp [hx]))
        (fun x hx => hn x (by simp [hx]))
      exact ⟨answers D evs :: rss, q, by simp only [session, f1, h3]⟩
  exact key h _ (by show 0 < _; omega) (Nat.zero_le _) hc hn

example : ∀ x ∈ [(([0xb5, 0x62, 1] : Bytes), 5000), ([0xff], 4093)],
    x.1.length + rawDispatch.maxPayloadLen + 8 ≤ (2 ^ 32 - 1) / 2 ∧
    x.1.length + rawDispatch.maxPayloadLen + 8 ≤ 2 * x.2 := by decide

/-! ## C02 Every `next()` call makes progress; iteration is finite and fused -/

/-- **C02** For every lawful buffer (in particular the two of the crate) and every parser state:
* every call terminates and there is one answer per call;
* every `Some` answer has used up at least two of the bytes held by the parser or in the chunk;
* after the first `None` only `None` follows;
* after the first `None` more calls change nothing. -/
theorem c02_progress_and_fused {T : Type} [UnderlyingBuffer T] [LawfulBuffer M T] {p : Parser T}
    (hM : D.maxPayloadLen + 8 ≤ M) (hi : LawfulBuffer.Inv M p.buf) (chunk : Bytes)
    (hc : chunk.length ≤ M / 2) (hr : LawfulBuffer.Room M T (p.bufferLen + chunk.length)) (n : Nat) :
    ∃ rs q, feed M D p chunk n = some (.ok (rs, q)) ∧ rs.length = n ∧
      q.bufferLen + 2 * (results [rs]).length ≤ p.bufferLen + chunk.length ∧
      (∀ i j, i ≤ j → j < n → rs[i]? = some none → rs[j]? = some none) ∧
      (none ∈ rs → ∀ m, ∃ q', feed M D p chunk (n + m) =
          some (.ok (rs ++ List.replicate m none, q')) ∧
        LawfulBuffer.contents M q'.buf = LawfulBuffer.contents M q.buf) := by
  have hlen := LawfulBuffer.len_eq hi
  have hr' := hr
  simp only [bufferLen, hlen] at hr'
  obtain ⟨evs, q, s, f1, f2, f3, f4, f5, f6⟩ := feed_eq (D := D) hi hc hr' hM n
  refine ⟨answers D evs, q, f1, by simp [answers, f4], ?_, ?_, ?_⟩
  · have h1 := run_length f5
    have h2 := (trim_suffix (LawfulBuffer.contents M p.buf ++ chunk)).length_le
    have h3 : q.bufferLen ≤ s.length := by
      simp only [bufferLen]
      rw [LawfulBuffer.len_eq f2, f6, List.length_take]; omega
    have h4 := results_answers (D := D) [evs]
    simp only [List.map_cons, List.map_nil, List.flatten_cons, List.flatten_nil,
      List.append_nil] at h4
    rw [h4, List.length_map]
    simp only [bufferLen, hlen]
    simp only [List.length_append] at h2
    simp only [bufferLen] at h3
    omega
  · intro i j hij hj hn
    have hmem : none ∈ evs := by
      rw [← none_mem_answers (D := D)]
      exact List.mem_of_getElem? hn
    obtain ⟨k, s0, m, e1, e2, e3, e4, e5⟩ := run_exhausted f5 hmem
    have hki : k.length ≤ i := by
      apply Decidable.byContradiction
      intro hlt
      have hlt : i < k.length := by omega
      simp only [answers, List.getElem?_map, e1] at hn
      rw [List.getElem?_append_left hlt, List.getElem?_eq_getElem hlt] at hn
      simp only [Option.map_some, Option.some.injEq, Option.map_eq_none_iff] at hn
      exact e2 (hn ▸ List.getElem_mem hlt)
    have hlm : k.length + m = n := by rw [← f4, e1]; simp
    simp only [answers, List.getElem?_map, e1]
    rw [List.getElem?_append_right (by omega), List.getElem?_replicate, if_pos (by omega)]
    rfl
  · intro hn m
    obtain ⟨it, h1, h2, _⟩ := consume_eq (M := M) hi hc hr'
    obtain ⟨q', g1, g2, g3, g4⟩ := feed_none_more (D := D) hi ⟨it, h1, h2⟩ hM f1 hn m
    exact ⟨q', g1, g3⟩

example : LawfulBuffer.Inv (2 ^ 16 - 1) (vecParser (2 ^ 16 - 1)).buf ∧
    LawfulBuffer.Room (2 ^ 16 - 1) (VecBuf (2 ^ 16 - 1))
      ((vecParser (2 ^ 16 - 1)).bufferLen + ([0xb5, 0x62] : Bytes).length) ∧
    LawfulBuffer.Inv (2 ^ 16 - 1) (flbParser (2 ^ 16 - 1) [0, 0, 0]).buf := by
  refine ⟨Nat.zero_le _, ?_, Nat.zero_le _, ?_⟩
  · show 0 + 2 ≤ (2 ^ 16 - 1) / 2; decide
  · show 3 ≤ (2 ^ 16 - 1) / 2; decide

/-- **C02** An iterator that is asked more than (bytes held + chunk) / 2 times has returned
`None`. -/
theorem c02_finite {T : Type} [UnderlyingBuffer T] [LawfulBuffer M T] {p : Parser T}
    (hM : D.maxPayloadLen + 8 ≤ M) (hi : LawfulBuffer.Inv M p.buf) (chunk : Bytes)
    (hc : chunk.length ≤ M / 2) (hr : LawfulBuffer.Room M T (p.bufferLen + chunk.length)) (n : Nat)
    (hn : p.bufferLen + chunk.length < 2 * n) :
    ∃ rs q, feed M D p chunk n = some (.ok (rs, q)) ∧ none ∈ rs := by
  obtain ⟨rs, q, h1, h2, h3, _⟩ := c02_progress_and_fused (D := D) hM hi chunk hc hr n
  refine ⟨rs, q, h1, ?_⟩
  apply Classical.byContradiction
  intro hno
  have h4 : ∀ l : List (Option (Except ParserError P)), none ∉ l →
      (results [l]).length = l.length := by
    intro l hl
    simp only [results, List.flatten_cons, List.flatten_nil, List.append_nil]
    induction l with
    | nil => rfl
    | cons e es ih =>
      cases e with
      | none => simp at hl
      | some e =>
        have : none ∉ es := by intro h; exact hl (by simp [h])
        simpa using ih this
  have := h4 rs hno
  omega

example : (vecParser (2 ^ 16 - 1)).bufferLen + ([0xb5, 0x62] : Bytes).length < 2 * 2 := by decide

/-- **C02** Hence every list of chunks can be fed to exhaustion (growable buffer); the hypothesis
`Exhausted` of the theorems of `Verif.Props.ParserDecode` is met by enough `next` calls. -/
theorem c02_vec_exhaustion_reachable (hM : D.maxPayloadLen + 8 ≤ M) (chunks : List Bytes)
    (ht : chunks.flatten.length ≤ M / 2) :
    ∃ rss q, session M D (vecParser M) (chunks.map fun c => (c, chunks.flatten.length + 1)) =
      some (.ok (rss, q)) ∧ Exhausted rss := by
  have key : ∀ (cs : List Bytes) (p : Parser (VecBuf M)) (k N : Nat),
      LawfulBuffer.Inv M p.buf → p.bufferLen ≤ k → k + cs.flatten.length ≤ N → N ≤ M / 2 →
      ∃ rss q, session M D p (cs.map fun c => (c, N + 1)) = some (.ok (rss, q)) ∧
        Exhausted rss := by
    intro cs
    induction cs with
    | nil => exact fun p k N _ _ _ _ => ⟨[], p, rfl, by simp [Exhausted]⟩
    | cons c cs ih =>
      intro p k N hi hk hN hNM
      have hl : (c :: cs).flatten.length = c.length + cs.flatten.length := by simp
      have hroom : LawfulBuffer.Room M (VecBuf M) (p.bufferLen + c.length) := by
        show p.bufferLen + c.length ≤ M / 2
        omega
      obtain ⟨rs, q, h1, h2⟩ := c02_finite (D := D) hM hi c (by omega) hroom (N + 1) (by omega)
      obtain ⟨evs, q', s, g1, g2, g3⟩ := feed_eq (D := D) hi (chunk := c) (by omega) hroom hM (N + 1)
      obtain ⟨rs', q'', k1, k2, k3, _⟩ := c02_progress_and_fused (D := D) hM hi c (by omega) hroom
        (N + 1)
      rw [h1] at g1 k1
      simp only [Option.some.injEq, Except.ok.injEq, Prod.mk.injEq] at g1 k1
      obtain ⟨rfl, rfl⟩ := g1
      obtain ⟨_, rfl⟩ := k1
      obtain ⟨rss, q2, m1, m2⟩ := ih q (k + c.length) N g2 (by omega) (by omega) hNM
      refine ⟨_, q2, by simp only [List.map_cons, session, h1, m1]; rfl, ?_⟩
      intro r hr
      rcases List.mem_cons.mp hr with rfl | hr
      · exact h2
      · exact m2 r hr
  exact key chunks (vecParser M) 0 _ (Nat.zero_le _) (Nat.le_refl _) (by omega) ht

/-- **C02** The same for a fixed buffer. -/
theorem c02_flb_exhaustion_reachable (hM : D.maxPayloadLen + 8 ≤ M) (backing : Bytes)
    (hb : backing.length ≤ M / 2) (chunks : List Bytes) (hc : ∀ c ∈ chunks, c.length ≤ M / 2) :
    ∃ rss q, session M D (flbParser M backing)
        (chunks.map fun c => (c, backing.length + c.length + 1)) = some (.ok (rss, q)) ∧
      Exhausted rss := by
  have key : ∀ (cs : List Bytes) (p : Parser (FixedLinearBuffer M)),
      LawfulBuffer.Inv M p.buf → p.buf.buffer.length = backing.length →
      (∀ c ∈ cs, c.length ≤ M / 2) →
      ∃ rss q, session M D p (cs.map fun c => (c, backing.length + c.length + 1)) =
          some (.ok (rss, q)) ∧ Exhausted rss := by
    intro cs
    induction cs with
    | nil => exact fun p _ _ _ => ⟨[], p, rfl, by simp [Exhausted]⟩
    | cons c cs ih =>
      intro p hi hk hc
      have hc0 := hc c (by simp)
      have hl : p.bufferLen ≤ backing.length := hk ▸ hi.1
      obtain ⟨rs, q, h1, h2⟩ := c02_finite (D := D) hM hi c hc0 trivial
        (backing.length + c.length + 1) (by omega)
      obtain ⟨evs, q', s, g1, g2, g3, _⟩ := feed_eq (D := D) hi (chunk := c) hc0 trivial hM
        (backing.length + c.length + 1)
      rw [h1] at g1
      simp only [Option.some.injEq, Except.ok.injEq, Prod.mk.injEq] at g1
      obtain ⟨rfl, rfl⟩ := g1
      obtain ⟨rss, q2, m1, m2⟩ := ih q g2 (g3.trans hk) (fun c h => hc c (by simp [h]))
      refine ⟨_, q2, by simp only [List.map_cons, session, h1, m1]; rfl, ?_⟩
      intro r hr
      rcases List.mem_cons.mp hr with rfl | hr
      · exact h2
      · exact m2 r hr
  exact key chunks _ ⟨Nat.zero_le _, hb⟩ rfl hc

/-! ## C11 A fixed buffer never overflows and exhausting the iterator loses no byte -/

/-- **C11**, first half: the fixed buffer never holds more than its capacity. -/
theorem c11_never_overflows (hM : D.maxPayloadLen + 8 ≤ M) (backing : Bytes)
    (hb : backing.length ≤ M / 2) (h : List (Bytes × Nat)) (hs : Slices M h) :
    ∃ rss q, session M D (flbParser M backing) h = some (.ok (rss, q)) ∧
      q.bufferLen ≤ backing.length := by
  obtain ⟨evss, q, h1, h2, h3, _⟩ := flb_session (D := D) hb hs hM
  exact ⟨_, q, h1, by rw [← h3]; exact h2⟩

example : Slices (2 ^ 16 - 1) [(([0xb5, 0x62, 1] : Bytes), 3), ([], 0)] := by unfold Slices; decide

/-- **C11**, second half, for capacities of at least 5 bytes: after a chunk has been iterated to
`None` the parser holds a suffix of (bytes held before ++ chunk), so no byte was dropped at the end.
What is missing for the full claim is capacity 4, where it is false: `c11_capacity_four_loses`. -/
theorem c11_exhausted_loses_nothing_partial (hM : D.maxPayloadLen + 8 ≤ M) (backing : Bytes)
    (hb : backing.length ≤ M / 2) (h5 : 5 ≤ backing.length) (h : List (Bytes × Nat))
    (hs : Slices M h) {rss q} (hq : session M D (flbParser M backing) h = some (.ok (rss, q)))
    (chunk : Bytes) (hc : chunk.length ≤ M / 2) (n : Nat) {rs q'}
    (hf : feed M D q chunk n = some (.ok (rs, q'))) (hn : none ∈ rs) :
    flbBytes q' <:+ flbBytes q ++ chunk := by
  have hi : LawfulBuffer.Inv M (flbParser M backing).buf := ⟨Nat.zero_le _, hb⟩
  obtain ⟨evss, q1, h1, h2, h3, h4⟩ := session_eq (M := M) (D := D) (p := flbParser M backing)
    (h := h) hi (by
      intro h1 c n h2 he rs q hq
      refine ⟨hs (c, n) ?_, trivial⟩
      rw [he]; simp) hM
  rw [hq] at h1
  simp only [Option.some.injEq, Except.ok.injEq, Prod.mk.injEq] at h1
  obtain ⟨_, rfl⟩ := h1
  obtain ⟨evs, q2, s, f1, f2, f3, f4, f5, f6⟩ := feed_eq (D := D) h2 hc trivial hM n
  rw [hf] at f1
  simp only [Option.some.injEq, Except.ok.injEq, Prod.mk.injEq] at f1
  obtain ⟨rfl, rfl⟩ := f1
  obtain ⟨_, _, _, _, _, _, _, e5⟩ := run_exhausted f5 ((none_mem_answers (D := D)).mp hn)
  have hlen := (step_none_length e5).1
  have hcap : maxCapacity q.buf = backing.length := h3
  rw [hcap] at hlen f6
  rw [List.take_of_length_le (by omega)] at f6
  show LawfulBuffer.contents M q'.buf <:+ LawfulBuffer.contents M q.buf ++ chunk
  rw [f6]
  exact (run_suffix f5).trans (trim_suffix _)

/-- **C11**, second half, exactly, for every capacity: what a parser keeps after a chunk has been
iterated to `None` are the bytes that the decoding steps leave pending, cut off at the capacity; from
capacity 5 on they all fit, below it at most five bytes can be pending. -/
theorem c11_pending_kept (hM : D.maxPayloadLen + 8 ≤ M) (backing : Bytes)
    (hb : backing.length ≤ M / 2) (h : List (Bytes × Nat))
    (hs : Slices M h) {rss q} (hq : session M D (flbParser M backing) h = some (.ok (rss, q)))
    (chunk : Bytes) (hc : chunk.length ≤ M / 2) (n : Nat) {rs q'}
    (hf : feed M D q chunk n = some (.ok (rs, q'))) (hn : none ∈ rs) :
    ∃ evs pending, rs = evs.map (Option.map (report D.matchPacket)) ∧
      Run D.maxPayloadLen backing.length (trim (flbBytes q ++ chunk)) evs pending ∧
      flbBytes q' = pending.take backing.length ∧
      (5 ≤ backing.length → flbBytes q' = pending) ∧
      (backing.length < 5 → pending.length ≤ 5) := by
  have hi : LawfulBuffer.Inv M (flbParser M backing).buf := ⟨Nat.zero_le _, hb⟩
  obtain ⟨evss, q1, h1, h2, h3, h4⟩ := session_eq (M := M) (D := D) (p := flbParser M backing)
    (h := h) hi (by
      intro h1 c n h2 he rs q hq
      refine ⟨hs (c, n) ?_, trivial⟩
      rw [he]; simp) hM
  rw [hq] at h1
  simp only [Option.some.injEq, Except.ok.injEq, Prod.mk.injEq] at h1
  obtain ⟨_, rfl⟩ := h1
  obtain ⟨evs, q2, s, f1, f2, f3, f4, f5, f6⟩ := feed_eq (D := D) h2 hc trivial hM n
  rw [hf] at f1
  simp only [Option.some.injEq, Except.ok.injEq, Prod.mk.injEq] at f1
  obtain ⟨rfl, rfl⟩ := f1
  obtain ⟨_, _, _, _, _, _, _, e5⟩ := run_exhausted f5 ((none_mem_answers (D := D)).mp hn)
  have hlen := (step_none_length e5).1
  have hcap : maxCapacity q.buf = backing.length := h3
  rw [hcap] at hlen f6 f5
  refine ⟨evs, s, rfl, f5, f6, fun h5 => ?_, fun h5 => by omega⟩
  rw [List.take_of_length_le (by omega)] at f6
  exact f6

/-- **C11**: whatever dispatch the parser is used with, the capacities with which a parser that is
always iterated to `None` keeps all pending bytes are exactly those of at least 5 bytes. -/
theorem c11_capacity_iff (hM : D.maxPayloadLen + 8 ≤ M) (backing : Bytes)
    (hb : backing.length ≤ M / 2) (hM5 : 5 ≤ M / 2) :
    (∀ (h : List (Bytes × Nat)) rss q, Slices M h →
      session M D (flbParser M backing) h = some (.ok (rss, q)) →
      ∀ (chunk : Bytes) (n : Nat) rs q', chunk.length ≤ M / 2 →
        feed M D q chunk n = some (.ok (rs, q')) → none ∈ rs →
        ∃ evs pending, rs = evs.map (Option.map (report D.matchPacket)) ∧
          Run D.maxPayloadLen backing.length (trim (flbBytes q ++ chunk)) evs pending ∧
          flbBytes q' = pending) ↔
      5 ≤ backing.length := by
  constructor
  · intro hall
    have hi : LawfulBuffer.Inv M (flbParser M backing).buf := ⟨Nat.zero_le _, hb⟩
    obtain ⟨evs, q', s, f1, f2, f3, f4, f5, f6⟩ :=
      feed_eq (D := D) (chunk := [0xb5, 0x62, 1, 2, 3]) hi (by simpa using hM5) trivial hM 1
    have hscan : scan D.maxPayloadLen [0xb5, 0x62, 1, 2, 3] = .wait [0xb5, 0x62, 1, 2, 3] := by
      simp [scan]
    have htrim : trim (LawfulBuffer.contents M (flbParser M backing).buf ++
        [0xb5, 0x62, 1, 2, 3]) = [0xb5, 0x62, 1, 2, 3] := by
      show trim (backing.take 0 ++ _) = _
      simp [trim]
    have hone : ∀ evs s, Run D.maxPayloadLen backing.length [0xb5, 0x62, 1, 2, 3] evs s →
        evs.length = 1 → evs = [none] ∧ s = [0xb5, 0x62, 1, 2, 3] := by
      intro evs s hr hl
      cases hr with
      | nil => simp at hl
      | cons h1 h2 =>
        cases h2 with
        | cons => simp at hl
        | nil =>
          cases h1 with
          | wait h => rw [hscan] at h; cases h; exact ⟨rfl, rfl⟩
          | incomplete h => rw [hscan] at h; cases h
          | noRoom h => rw [hscan] at h; cases h
          | noRoomComplete h => rw [hscan] at h; cases h
          | packet h => rw [hscan] at h; cases h
          | bad h => rw [hscan] at h; cases h
    rw [htrim] at f5
    obtain ⟨rfl, rfl⟩ := hone _ _ f5 f4
    obtain ⟨evs, s, g1, g2, g3⟩ := hall [] [] _ (by intro x hx; cases hx) rfl _ 1 _ q'
      (by simpa using hM5) f1 (by simp [answers])
    have hq0 : flbBytes (flbParser M backing) ++ ([0xb5, 0x62, 1, 2, 3] : Bytes) =
      [0xb5, 0x62, 1, 2, 3] := by show backing.take 0 ++ _ = _; simp
    rw [hq0] at g2
    have ht : trim ([0xb5, 0x62, 1, 2, 3] : Bytes) = [0xb5, 0x62, 1, 2, 3] := by decide
    rw [ht] at g2
    have hl : evs.length = 1 := by
      have := congrArg List.length g1
      simpa [answers] using this.symm
    obtain ⟨_, rfl⟩ := hone _ _ g2 hl
    have f6' : flbBytes q' = ([0xb5, 0x62, 1, 2, 3] : Bytes).take backing.length := f6
    rw [g3] at f6'
    have := congrArg List.length f6'
    simp at this
    omega
  · intro h5 h rss q hs hq chunk n rs q' hc hf hn
    obtain ⟨evs, p, e1, e2, _, e4, _⟩ := c11_pending_kept hM backing hb h hs hq chunk hc n hf hn
    exact ⟨evs, p, e1, e2, e4 h5⟩

/-- **C11** fails for the documented minimum of 4 bytes: with the five bytes `b5 62 01 02 03` the
iterator is exhausted at once, but only four of the five pending bytes are kept. -/
theorem c11_capacity_four_loses :
    ∃ q : Parser (FixedLinearBuffer 65535),
      feed 65535 rawDispatch (flbParser 65535 [0, 0, 0, 0]) [0xb5, 0x62, 1, 2, 3] 1 =
        some (.ok ([none], q)) ∧
      flbBytes q = [0xb5, 0x62, 1, 2] ∧
      ¬ flbBytes q <:+ flbBytes (flbParser 65535 [0, 0, 0, 0]) ++ [0xb5, 0x62, 1, 2, 3] := by
  refine ⟨⟨⟨[0xb5, 0x62, 1, 2], 4⟩⟩, ?_, by decide, by decide⟩
  have hn : ParserIter.next 65535 rawDispatch (⟨⟨(⟨[0, 0, 0, 0], 0⟩ : FixedLinearBuffer 65535), 0,
      [0xb5, 0x62, 1, 2, 3], 0⟩⟩) =
      some (.ok (none, ⟨⟨⟨[0, 0, 0, 0], 0⟩, 0, [0xb5, 0x62, 1, 2, 3], 0⟩⟩)) := by
    rw [ParserIter.next.eq_def]
    rfl
  have hc : Parser.consume 65535 (flbParser 65535 [0, 0, 0, 0]) [0xb5, 0x62, 1, 2, 3] =
      .ok ⟨⟨(⟨[0, 0, 0, 0], 0⟩ : FixedLinearBuffer 65535), 0, [0xb5, 0x62, 1, 2, 3], 0⟩⟩ := rfl
  simp only [feed, hc, callNext, hn]
  rfl

/-! ## C12 Memory use is bounded -/

/-- **C12** After iterating to `None` a parser over any lawful buffer keeps fewer bytes than the
largest possible frame has, whatever was fed before (`p` is any parser state). -/
theorem c12_bounded_memory {T : Type} [UnderlyingBuffer T] [LawfulBuffer M T] {p : Parser T}
    (hM : D.maxPayloadLen + 8 ≤ M) (hi : LawfulBuffer.Inv M p.buf) (chunk : Bytes)
    (hc : chunk.length ≤ M / 2) (hr : LawfulBuffer.Room M T (p.bufferLen + chunk.length)) (n : Nat)
    {rs q} (hf : feed M D p chunk n = some (.ok (rs, q))) (hn : none ∈ rs) :
    q.bufferLen < D.maxPayloadLen + 8 := by
  have hlen := LawfulBuffer.len_eq hi
  simp only [bufferLen, hlen] at hr
  obtain ⟨evs, q2, s, f1, f2, f3, f4, f5, f6⟩ := feed_eq (D := D) hi hc hr hM n
  rw [hf] at f1
  simp only [Option.some.injEq, Except.ok.injEq, Prod.mk.injEq] at f1
  obtain ⟨rfl, rfl⟩ := f1
  obtain ⟨_, _, _, _, _, _, _, e5⟩ := run_exhausted f5 ((none_mem_answers (D := D)).mp hn)
  have := (step_none_length e5).2.1
  simp only [bufferLen, LawfulBuffer.len_eq f2, f6, List.length_take]
  omega

end Ublox.Props
