import Verif.Lemmas.Api
import Verif.Lemmas.Sim
import Verif.Props.ParserSafety

/-!
# C88: what a buffer held before
-/

namespace Ublox.Props

open Spec Ublox.Parser
open UnderlyingBuffer (len maxCapacity)

variable {P : Type} {M : Nat} {D : Dispatch P}

theorem feedLeak_same {p q : Parser (FixedLinearBuffer M)} (h : SameBuf M p.buf q.buf) {c : Bytes}
    {n : Nat} {leak : Bool} {rs p'} (hr : feedLeak M D p c n leak = some (.ok (rs, p'))) :
    ∃ q', feedLeak M D q c n leak = some (.ok (rs, q')) ∧ SameBuf M p'.buf q'.buf := by
  cases leak with
  | false =>
    have e : ∀ p : Parser (FixedLinearBuffer M), feedLeak M D p c n false = feed M D p c n := by
      intro p
      simp [feedLeak, feed]
    rw [e] at hr ⊢
    exact feed_same h (by exact trivial) (by exact trivial) hr
  | true =>
    have h1 := consume_same h c (by exact trivial) (by exact trivial)
    simp only [feedLeak, if_true] at hr ⊢
    cases h2 : p.consume M c with
    | error => rw [h2] at hr; cases hr
    | ok it =>
      rw [h2] at hr h1
      cases h3 : q.consume M c with
      | error => rw [h3] at h1; exact h1.elim
      | ok jt =>
        rw [h3] at h1
        have hs : DualBuffer.Same M it.buf jt.buf := h1
        simp only at hr ⊢
        cases h4 : callNext M D n it with
        | none => rw [h4] at hr; cases hr
        | some x =>
          rw [h4] at hr
          cases x with
          | error => cases hr
          | ok x =>
            obtain ⟨rs1, it1⟩ := x
            obtain ⟨jt1, g1, g2⟩ := callNext_same hs h4
            rw [g1]
            cases hr
            exact ⟨⟨jt1.buf.buf⟩, rfl, g2.buf⟩

theorem sessionLeak_same {h : List (Bytes × Nat × Bool)} {p q : Parser (FixedLinearBuffer M)}
    (hb : SameBuf M p.buf q.buf) {rss p'} (hr : sessionLeak M D p h = some (.ok (rss, p'))) :
    ∃ q', sessionLeak M D q h = some (.ok (rss, q')) ∧ SameBuf M p'.buf q'.buf := by
  induction h generalizing p q rss p' with
  | nil => cases hr; exact ⟨q, rfl, hb⟩
  | cons x rest ih =>
    obtain ⟨c, n, l⟩ := x
    simp only [sessionLeak] at hr ⊢
    cases h1 : feedLeak M D p c n l with
    | none => rw [h1] at hr; cases hr
    | some r =>
      rw [h1] at hr
      cases r with
      | error => cases hr
      | ok y =>
        obtain ⟨rs, p1⟩ := y
        obtain ⟨q1, g1, g2⟩ := feedLeak_same hb h1
        rw [g1]
        simp only at hr ⊢
        cases h2 : sessionLeak M D p1 rest with
        | none => rw [h2] at hr; cases hr
        | some s =>
          rw [h2] at hr
          cases s with
          | error => cases hr
          | ok z =>
            obtain ⟨rss1, p2⟩ := z
            cases hr
            obtain ⟨q2, k1, k2⟩ := ih g2 h2
            exact ⟨q2, by rw [k1], k2⟩

/-- **C88**, at any time: two parsers over fixed buffers of the same length that hold the same bytes
give the same answers from then on and go on to hold the same bytes, whatever else the slices
contain. -/
theorem c88_same_from_then (hM : D.maxPayloadLen + 8 ≤ M) {p q : Parser (FixedLinearBuffer M)}
    (hp : p.buf.len ≤ p.buf.buffer.length) (hq : q.buf.len ≤ q.buf.buffer.length)
    (hc : p.buf.buffer.length = q.buf.buffer.length) (hb : flbBytes p = flbBytes q)
    (hl : p.buf.buffer.length ≤ M / 2) (h : List (Bytes × Nat × Bool))
    (hs : ∀ x ∈ h, x.1.length ≤ M / 2) :
    ∃ rss p' q', sessionLeak M D p h = some (.ok (rss, p')) ∧
      sessionLeak M D q h = some (.ok (rss, q')) ∧ flbBytes p' = flbBytes q' ∧
      p'.bufferLen = q'.bufferLen := by
  have key : ∀ (h : List (Bytes × Nat × Bool)) (p : Parser (FixedLinearBuffer M)),
      LawfulBuffer.Inv M p.buf → (∀ x ∈ h, x.1.length ≤ M / 2) →
      ∃ rss q, sessionLeak M D p h = some (.ok (rss, q)) := by
    intro h
    induction h with
    | nil => exact fun p _ _ => ⟨[], p, rfl⟩
    | cons x rest ih =>
      intro p hi hs
      obtain ⟨c, n, l⟩ := x
      obtain ⟨rs, p1, h1, h2⟩ := feedLeak_ok (D := D) hi (hs (c, n, l) (by simp))
        (by exact trivial) hM n l
      obtain ⟨rss, q, h3⟩ := ih p1 h2 fun x hx => hs x (by simp [hx])
      exact ⟨rs :: rss, q, by simp only [sessionLeak, h1, h3]⟩
  have hi : LawfulBuffer.Inv M p.buf := ⟨hp, hl⟩
  have hj : LawfulBuffer.Inv M q.buf := ⟨hq, hc ▸ hl⟩
  obtain ⟨rss, p', h1⟩ := key h p hi hs
  obtain ⟨q', h2, h3⟩ := sessionLeak_same (q := q) ⟨hi, hj, hb, hc⟩ h1
  exact ⟨rss, p', q', h1, h2, h3.contents, h3.len_eq⟩

/-- **C88**, new parsers: what the slice contained when it was handed over has no influence. -/
theorem c88_old_bytes (hM : D.maxPayloadLen + 8 ≤ M) {backing other : Bytes}
    (hc : backing.length = other.length) (hl : backing.length ≤ M / 2)
    (h : List (Bytes × Nat × Bool)) (hs : ∀ x ∈ h, x.1.length ≤ M / 2) :
    ∃ rss p q, sessionLeak M D (flbParser M backing) h = some (.ok (rss, p)) ∧
      sessionLeak M D (flbParser M other) h = some (.ok (rss, q)) ∧ flbBytes p = flbBytes q ∧
      p.bufferLen = q.bufferLen :=
  c88_same_from_then hM (p := flbParser M backing) (q := flbParser M other) (Nat.zero_le _)
    (Nat.zero_le _) hc rfl hl h hs

/-- One chunk leaves the slice as long as it was. -/
theorem feedLeak_cap (hM : D.maxPayloadLen + 8 ≤ M) {p : Parser (FixedLinearBuffer M)}
    (hi : LawfulBuffer.Inv M p.buf) {c : Bytes} (hc : c.length ≤ M / 2) (n : Nat) (leak : Bool) :
    ∃ rs p', feedLeak M D p c n leak = some (.ok (rs, p')) ∧ LawfulBuffer.Inv M p'.buf ∧
      p'.buf.buffer.length = p.buf.buffer.length := by
  obtain ⟨it, h1, h2, h3, h4⟩ := consume_eq (M := M) hi hc (by exact trivial)
  obtain ⟨evs, it', i1, i2, i3, i4, i5⟩ := callNext_eq (D := D) h2 hM n
  cases leak with
  | true =>
    refine ⟨answers D evs, ⟨it'.buf.buf⟩, ?_, i2.inv, i3.trans h3⟩
    simp only [feedLeak, h1, i1, if_true]
  | false =>
    obtain ⟨b, j1, j2, j3, j4⟩ := DualBuffer.dropDual_eq i2
    refine ⟨answers D evs, ⟨b⟩, ?_, j2, j4.trans (i3.trans h3)⟩
    simp only [feedLeak, h1, i1, j1, Bool.false_eq_true, if_false]

/-- A history leaves the slice as long as it was. -/
theorem sessionLeak_cap (hM : D.maxPayloadLen + 8 ≤ M) {h : List (Bytes × Nat × Bool)}
    (hs : ∀ x ∈ h, x.1.length ≤ M / 2) {p : Parser (FixedLinearBuffer M)}
    (hi : LawfulBuffer.Inv M p.buf) {rss p'} (hr : sessionLeak M D p h = some (.ok (rss, p'))) :
    LawfulBuffer.Inv M p'.buf ∧ p'.buf.buffer.length = p.buf.buffer.length := by
  induction h generalizing p rss with
  | nil => cases hr; exact ⟨hi, rfl⟩
  | cons x rest ih =>
    obtain ⟨c, n, l⟩ := x
    obtain ⟨rs, p1, h1, h2, h3⟩ := feedLeak_cap (D := D) hM hi (hs (c, n, l) (by simp)) n l
    simp only [sessionLeak, h1] at hr
    cases h4 : sessionLeak M D p1 rest with
    | none => rw [h4] at hr; cases hr
    | some s =>
      rw [h4] at hr
      cases s with
      | error => cases hr
      | ok z =>
        cases hr
        obtain ⟨h5, h6⟩ := ih (fun x hx => hs x (by simp [hx])) h2 h4
        exact ⟨h5, h6.trans h3⟩

/-- **C88**, a slice used again: whatever a parser did with the slice, and even if its iterators were
leaked, a new parser over that slice gives the answers that it gives over the slice as it was at
first. -/
theorem c88_used_again (hM : D.maxPayloadLen + 8 ≤ M) {backing : Bytes}
    (hl : backing.length ≤ M / 2) {h0 h : List (Bytes × Nat × Bool)}
    (hs0 : ∀ x ∈ h0, x.1.length ≤ M / 2) (hs : ∀ x ∈ h, x.1.length ≤ M / 2) {rss0 q0}
    (hr : sessionLeak M D (flbParser M backing) h0 = some (.ok (rss0, q0))) :
    q0.buf.buffer.length = backing.length ∧
    ∃ rss p q, sessionLeak M D (flbParser M q0.buf.buffer) h = some (.ok (rss, p)) ∧
      sessionLeak M D (flbParser M backing) h = some (.ok (rss, q)) ∧ flbBytes p = flbBytes q := by
  have h1 := (sessionLeak_cap (D := D) hM hs0 (p := flbParser M backing)
    (⟨Nat.zero_le _, hl⟩ : _ ∧ _) hr).2
  have h2 : q0.buf.buffer.length = backing.length := h1
  obtain ⟨rss, p, q, k1, k2, k3, _⟩ := c88_old_bytes (D := D) hM h2 (h2 ▸ hl) h hs
  exact ⟨h2, rss, p, q, k1, k2, k3⟩

/-- A slice that happens to contain a whole frame, in a parser that leaked an iterator; a new parser
over it does not see that frame. -/
example : (rawDispatch.maxPayloadLen + 8 ≤ 2 ^ 16 - 1) ∧
    ([0xb5, 0x62, 5, 1, 2, 0, 6, 1, 15, 56] : Bytes).length ≤ (2 ^ 16 - 1) / 2 ∧
    ∀ x ∈ [(([0xb5, 0x62, 5, 1] : Bytes), 1, true), ([2, 0, 6, 1, 15, 56], 1, false)],
      x.1.length ≤ (2 ^ 16 - 1) / 2 := by
  decide

end Ublox.Props
