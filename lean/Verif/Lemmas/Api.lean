import Verif.Lemmas.Clean
import Verif.Spec.Api

/-!
# Histories of the two kinds of parsers
-/

namespace Ublox

open Spec Parser

variable {P : Type} {M : Nat} {D : Dispatch P}

theorem fed_eq (h : List (Bytes × Nat)) : fed h = fedBytes h := rfl

theorem vec_room {h : List (Bytes × Nat)} (hv : VecHolds M D h) :
    SessionRoom M D (vecParser M) h := by
  intro h1 c n h2 he rs q hq
  have := hv h1 c n h2 he rs q hq
  exact ⟨by omega, this⟩

theorem vec_session {h : List (Bytes × Nat)} (hv : VecHolds M D h) (hM : D.maxPayloadLen + 8 ≤ M) :
    ∃ evss q, session M D (vecParser M) h = some (.ok (evss.map (answers D), q)) ∧
      q.buf.bytes.length ≤ M / 2 ∧
      Hist M D.maxPayloadLen M [] h evss q.buf.bytes := by
  obtain ⟨evss, q, h1, h2, h3, h4⟩ := session_eq (M := M) (D := D) (p := vecParser M) (h := h)
    (Nat.zero_le _) (vec_room hv) hM
  exact ⟨evss, q, h1, h2, h4⟩

theorem flb_session {h : List (Bytes × Nat)} {backing : Bytes} (hb : backing.length ≤ M / 2)
    (hs : Slices M h) (hM : D.maxPayloadLen + 8 ≤ M) :
    ∃ evss q, session M D (flbParser M backing) h = some (.ok (evss.map (answers D), q)) ∧
      q.buf.len ≤ q.buf.buffer.length ∧ q.buf.buffer.length = backing.length ∧
      Hist M D.maxPayloadLen backing.length [] h evss (flbBytes q) := by
  have hi : LawfulBuffer.Inv M (flbParser M backing).buf := ⟨Nat.zero_le _, hb⟩
  obtain ⟨evss, q, h1, h2, h3, h4⟩ := session_eq (M := M) (D := D) (p := flbParser M backing) (h := h)
    hi (by
      intro h1 c n h2 he rs q hq
      refine ⟨hs (c, n) ?_, trivial⟩
      rw [he]; simp) hM
  exact ⟨evss, q, h1, h2.1, h3, h4⟩

theorem flb_kept {h : List (Bytes × Nat)} {backing : Bytes} (hb : backing.length ≤ M / 2)
    (h5 : 5 ≤ backing.length) (hs : Slices M h) (hk : FlbKeeps M D backing h)
    (hM : D.maxPayloadLen + 8 ≤ M) :
    ∃ evss q, session M D (flbParser M backing) h = some (.ok (evss.map (answers D), q)) ∧
      HistKept D.maxPayloadLen backing.length [] h evss (flbBytes q) := by
  have key : ∀ (h : List (Bytes × Nat)) (p : Parser (FixedLinearBuffer M)),
      LawfulBuffer.Inv M p.buf → p.buf.buffer.length = backing.length → Slices M h →
      (∀ h1 c n h2, h = h1 ++ (c, n) :: h2 → ∀ rss q rs q',
        session M D p h1 = some (.ok (rss, q)) → feed M D q c n = some (.ok (rs, q')) →
        none ∈ rs ∨ q.bufferLen + c.length ≤ backing.length) →
      ∃ evss q, session M D p h = some (.ok (evss.map (answers D), q)) ∧
        HistKept D.maxPayloadLen backing.length (flbBytes p) h evss (flbBytes q) := by
    intro h
    induction h with
    | nil => intro p _ _ _ _; exact ⟨[], p, rfl, .nil _⟩
    | cons x rest ih =>
      intro p hi hcap hs hk
      obtain ⟨c, n⟩ := x
      obtain ⟨evs, p1, s, f1, f2, f3, f4, f5, f6⟩ := feed_eq (M := M) (D := D) (n := n) (chunk := c) hi
        (hs (c, n) (by simp)) trivial hM
      have hk0 := hk [] c n rest rfl [] p _ _ rfl f1
      have hmc : UnderlyingBuffer.maxCapacity p.buf = backing.length := hcap
      rw [hmc] at f5 f6
      have hst : s.take backing.length = s := by
        apply List.take_of_length_le
        rcases hk0 with hk0 | hk0
        · obtain ⟨k, s0, m, _, _, _, _, e5⟩ := run_exhausted f5 (by simpa [answers] using hk0)
          have := (step_none_length e5).1
          omega
        · have h1 := (run_suffix f5).length_le
          have h2 := (trim_suffix (LawfulBuffer.contents M p.buf ++ c)).length_le
          have h3 := LawfulBuffer.len_eq hi
          rw [List.length_append, ← h3] at h2
          have h4 : p.bufferLen = UnderlyingBuffer.len p.buf := rfl
          omega
      rw [hst] at f6
      obtain ⟨evss, q, g1, g2⟩ := ih p1 f2 (f3.trans hmc) (fun x hx => hs x (by simp [hx])) (by
        intro h1 c' n' h2 he rss q rs q' hq hq'
        refine hk ((c, n) :: h1) c' n' h2 (by rw [he]; rfl) (answers D evs :: rss) q rs q' ?_ hq'
        simp only [session, f1, hq])
      refine ⟨evs :: evss, q, by simp only [session, f1, g1, List.map_cons], .cons f5 ?_⟩
      rw [← f6]
      exact g2
  exact key h (flbParser M backing) ⟨Nat.zero_le _, hb⟩ rfl hs hk

theorem results_answers (evss : List (List (Option Ev))) :
    results (evss.map (answers D)) = (reports evss.flatten).map (report D.matchPacket) := by
  have : ∀ l : List (Option Ev), (answers D l).filterMap id =
      (reports l).map (report D.matchPacket) := by
    intro l
    induction l with
    | nil => rfl
    | cons x l ih => cases x <;> simp_all [reports]
  rw [← this]
  unfold results
  congr 1
  simp [answers, List.map_flatten]

theorem exhausted_answers {evss : List (List (Option Ev))}
    (h : Exhausted (evss.map (answers D))) : ∀ evs ∈ evss, none ∈ evs := by
  intro evs he
  have := h (answers D evs) (List.mem_map_of_mem he)
  simpa [answers] using this

theorem none_mem_answers {evs : List (Option Ev)} : none ∈ answers D evs ↔ none ∈ evs := by
  simp [answers]

/-- One chunk for a history that goes on. -/
theorem session_append {T : Type} [UnderlyingBuffer T] {p q : Parser T} {h1 h2 : List (Bytes × Nat)}
    {rs} (h : session M D p h1 = some (.ok (rs, q))) :
    session M D p (h1 ++ h2) =
      match session M D q h2 with
      | none => none
      | some (.error e) => some (.error e)
      | some (.ok (rss, q')) => some (.ok (rs ++ rss, q')) := by
  induction h1 generalizing p rs with
  | nil =>
    simp only [session, Option.some.injEq, Except.ok.injEq, Prod.mk.injEq] at h
    obtain ⟨rfl, rfl⟩ := h
    simp only [List.nil_append]
    split <;> simp_all
  | cons x rest ih =>
    obtain ⟨c, n⟩ := x
    simp only [session, List.cons_append] at h ⊢
    match hf : feed M D p c n with
    | none => rw [hf] at h; cases h
    | some (.error e) => rw [hf] at h; cases h
    | some (.ok (r, p1)) =>
      rw [hf] at h
      simp only at h ⊢
      match hs : session M D p1 rest with
      | none => rw [hs] at h; cases h
      | some (.error e) => rw [hs] at h; cases h
      | some (.ok (rss, p2)) =>
        rw [hs] at h
        simp only [Option.some.injEq, Except.ok.injEq, Prod.mk.injEq] at h
        obtain ⟨rfl, rfl⟩ := h
        rw [ih hs]
        cases session M D p2 h2 with
        | none => rfl
        | some r => cases r <;> rfl

end Ublox
