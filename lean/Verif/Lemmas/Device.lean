import Verif.Spec.Device
import Verif.Lemmas.Session

/-!
# The example program: loops
-/

namespace Ublox

open Spec
open UnderlyingBuffer (maxCapacity)

/-- Decoding what a decoding has left finds nothing, and what is left is shorter than a frame of
maximal length. -/
theorem decode_rest (maxLen : Nat) (s : Bytes) :
    decode maxLen (decode maxLen s).2 = ([], (decode maxLen s).2) ∧
      (decode maxLen s).2.length < maxLen + 8 := by
  generalize hn : s.length = n
  induction n using Nat.strongRecOn generalizing s with
  | ind n ih =>
    subst hn
    rcases decode_cases maxLen s with
      ⟨r, h0⟩ | ⟨c, i, lo, hi, tail, h0, h1 | ⟨x, y, after, h1, ⟨h2, h3⟩ | h2⟩⟩
    · rw [decode_wait h0]
      have := scan_wait_length h0
      exact ⟨decode_wait (scan_wait_idem h0), by simp only; omega⟩
    · rw [decode_incomplete h0 h1]
      have h' := (scan_header maxLen c i lo hi tail).trans (if_pos (scan_cand_le h0))
      have := scan_cand_le h0
      exact ⟨decode_incomplete h' h1, by simp [header]; omega⟩
    · rw [decode_packet h0 h1 h2 h3]
      have := cand_length h0
      have := after_length h1
      exact ih _ (by omega) after rfl
    · rw [decode_bad h0 h1 h2]
      have := cand_length h0
      exact ih _ (by simp only [List.length_cons]; omega) _ rfl

namespace Device

variable {P E σ : Type} {M : Nat} {D : Dispatch P}

theorem drainIter_eq (cb : P → σ → R σ) {it : ParserIter (VecBuf M)} (h : ParserIter.Ok M it)
    (hM : D.maxPayloadLen + 8 ≤ M) (hf : Fits D.maxPayloadLen it.cap (it.pending M)) (s : σ) :
    match (handed D (decode D.maxPayloadLen (it.pending M)).1).foldlM (fun s p => cb p s) s with
    | .error p => drainIter M D cb it s = some (.error p)
    | .ok s' => ∃ it', drainIter M D cb it s = some (.ok (s', it')) ∧ ParserIter.Ok M it' ∧
        it'.cap = it.cap ∧ it'.pending M = (decode D.maxPayloadLen (it.pending M)).2 := by
  generalize hn : (it.pending M).length = n
  induction n using Nat.strongRecOn generalizing it s with
  | ind n ih =>
    subst hn
    obtain ⟨r, it1, h1, h2, h3, ev, h4, h5⟩ := ParserIter.next_eq (D := D) h hM
    obtain ⟨d1, d2, d3⟩ := step_decode hf h5
    have hlen := step_length h5
    rw [drainIter.eq_def, h1, h4, d2]
    cases ev with
    | none =>
      have := d3 rfl
      rw [this]
      exact ⟨it1, rfl, h2, h3, rfl⟩
    | some ev =>
      have hl : (it1.pending M).length < (it.pending M).length := by simp at hlen; omega
      have ih' := fun s => ih _ hl h2 (by rw [h3]; exact d1) s rfl
      simp only [Option.map_some, Option.toList_some, List.cons_append, List.nil_append]
      cases hr : report D.matchPacket ev with
      | error e =>
        have : handed D (ev :: (decode D.maxPayloadLen (it1.pending M)).1) =
            handed D (decode D.maxPayloadLen (it1.pending M)).1 := by
          simp [handed, hr, Except.toOption]
        rw [this]
        have hi := ih' s
        split at hi
        · exact hi
        · obtain ⟨it', e1, e2, e3, e4⟩ := hi
          exact ⟨it', e1, e2, e3.trans h3, e4⟩
      | ok p =>
        have : handed D (ev :: (decode D.maxPayloadLen (it1.pending M)).1) =
            p :: handed D (decode D.maxPayloadLen (it1.pending M)).1 := by
          simp [handed, hr, Except.toOption]
        rw [this, List.foldlM_cons]
        simp only
        cases hc : cb p s with
        | error q => rfl
        | ok s1 =>
          have hi := ih' s1
          simp only [Except.ok_bind]
          split at hi
          · exact hi
          · obtain ⟨it', e1, e2, e3, e4⟩ := hi
            exact ⟨it', e1, e2, e3.trans h3, e4⟩

theorem handleChunk_eq (cb : P → σ → R σ) {p : Parser (VecBuf M)} {c : Bytes}
    (hM : D.maxPayloadLen + 8 + c.length ≤ M / 2)
    (hb : decode D.maxPayloadLen p.buf.bytes = ([], p.buf.bytes)) (s : σ) :
    match (handed D (decode D.maxPayloadLen (p.buf.bytes ++ c)).1).foldlM (fun s p => cb p s) s with
    | .error q => handleChunk M D cb p c s = some (.error q)
    | .ok s' => ∃ p', handleChunk M D cb p c s = some (.ok (s', p')) ∧
        p'.buf.bytes = (decode D.maxPayloadLen (p.buf.bytes ++ c)).2 := by
  have hl := (decode_rest D.maxPayloadLen p.buf.bytes).2
  rw [hb] at hl
  simp only at hl
  have hi : LawfulBuffer.Inv M p.buf := by show p.buf.bytes.length ≤ M / 2; omega
  obtain ⟨it, h1, h2, h3, h4⟩ := Parser.consume_eq (M := M) (p := p) (chunk := c) hi (by omega)
    (by show p.buf.bytes.length + c.length ≤ M / 2; omega)
  have hcap : it.cap = M := h3
  have hpend : it.pending M = trim (p.buf.bytes ++ c) := h4
  have hd := drainIter_eq (D := D) cb h2 (by omega) (fits_of_le (by rw [hcap]; omega) _) s
  rw [hpend, decode_trim] at hd
  split at hd
  · rename_i q hq
    simp only [handleChunk, h1, hd]
  · rename_i s' hs
    obtain ⟨it', e1, e2, e3, e4⟩ := hd
    obtain ⟨b, j1, j2, j3, j4⟩ := DualBuffer.dropDual_eq e2
    refine ⟨⟨b⟩, by simp only [handleChunk, h1, e1, j1], ?_⟩
    show LawfulBuffer.contents M b = _
    rw [j3]
    have hl2 := (decode_rest D.maxPayloadLen (p.buf.bytes ++ c)).2
    have hv : DualBuffer.view M it'.buf = (decode D.maxPayloadLen (p.buf.bytes ++ c)).2 := e4
    rw [hv, List.take_of_length_le]
    have : it'.buf.cap = M := e3.trans hcap
    omega

theorem update_eq (cb : P → σ → R σ) (hM : D.maxPayloadLen + 8 + 1240 ≤ M / 2) (port : Port E)
    (n : Nat) {dev : Device M} {b : Bytes} (hb : Holds D.maxPayloadLen dev b)
    (hc : ∀ i < n, Some1240 (port (dev.reads + i))) (s : σ) :
    match (handed D (decode D.maxPayloadLen (b ++ received port dev.reads n)).1).foldlM
        (fun s p => cb p s) s with
    | .error q => update M D port cb dev s = some (.error q)
    | .ok s' => ∃ dev', update M D port cb dev s = update M D port cb dev' s' ∧
        dev'.reads = dev.reads + n ∧
        Holds D.maxPayloadLen dev' (decode D.maxPayloadLen (b ++ received port dev.reads n)).2 := by
  induction n generalizing dev b s with
  | zero =>
    obtain ⟨h1, h2⟩ := hb
    simp only [received, List.append_nil, h2]
    exact ⟨dev, rfl, rfl, h1, h2⟩
  | succ n ih =>
    obtain ⟨h1, h2⟩ := hb
    subst h1
    obtain ⟨bs, c1, c2, c3⟩ := hc 0 (by omega)
    rw [Nat.add_zero] at c1
    have hh := handleChunk_eq (D := D) (p := dev.parser) (c := bs) cb (by omega) h2 s
    have hrec : received port dev.reads (n + 1) = bs ++ received port (dev.reads + 1) n := by
      rw [received, c1]; rfl
    have hdec := decode_append D.maxPayloadLen (dev.parser.buf.bytes ++ bs)
      (received port (dev.reads + 1) n)
    rw [hrec, ← List.append_assoc, hdec]
    have happ : ∀ x y, handed D (x ++ y) = handed D x ++ handed D y := by
      intro x y; simp [handed]
    rw [happ, List.foldlM_append]
    have hup : update M D port cb dev s =
        match handleChunk M D cb dev.parser bs s with
        | none => none
        | some (.error p) => some (.error p)
        | some (.ok (s, parser)) => update M D port cb ⟨dev.reads + 1, parser⟩ s := by
      rw [update.eq_def, c1]
      simp only [readPort]
      rw [if_neg (by omega), if_neg (by unfold localBufLen; omega)]
      rfl
    split at hh
    · rename_i q hq
      rw [hq, hup, hh]
      rfl
    · rename_i s1 hs1
      obtain ⟨p', e1, e2⟩ := hh
      rw [hs1, hup, e1]
      simp only [Except.ok_bind]
      have hi := ih (dev := ⟨dev.reads + 1, p'⟩) ⟨e2, (decode_rest _ _).1⟩
        (by
          intro i hi
          show Some1240 (port (dev.reads + 1 + i))
          rw [Nat.add_assoc, Nat.add_comm 1 i]
          exact hc (i + 1) (by omega)) s1
      split at hi
      · rename_i q hq
        simp only [hq]
        exact hi
      · rename_i s2 hs2
        obtain ⟨dev', f1, f2, f3⟩ := hi
        simp only [hs2]
        exact ⟨dev', f1, by rw [f2]; simp only; omega, f3⟩

end Device
end Ublox
