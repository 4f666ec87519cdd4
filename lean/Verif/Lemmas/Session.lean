import Verif.Lemmas.Stream

/-!
# Whole parser histories
-/

namespace Ublox

open UnderlyingBuffer (len maxCapacity)
open Spec

/-- A history as seen by the reference decoder: `b` is what the parser holds before, `b'` after.
`B` bounds the bytes present at any time (the address space). -/
inductive Hist (B maxLen cap : Nat) :
    Bytes → List (Bytes × Nat) → List (List (Option Ev)) → Bytes → Prop
  | nil (b) : Hist B maxLen cap b [] [] b
  | cons {b c n evs s rest evss b'} : (b ++ c).length ≤ B →
      Run maxLen cap (trim (b ++ c)) evs s → evs.length = n →
      Hist B maxLen cap (s.take cap) rest evss b' →
      Hist B maxLen cap b ((c, n) :: rest) (evs :: evss) b'

/-- All bytes of a history. -/
def fed (h : List (Bytes × Nat)) : Bytes := (h.map Prod.fst).flatten

namespace Parser

variable {T P : Type} [UnderlyingBuffer T] {M : Nat} [LawfulBuffer M T] {D : Dispatch P}

/-- Translation of a list of decoder reports to answers of `next`. -/
abbrev answers (D : Dispatch P) (evs : List (Option Ev)) : List (Option (Except ParserError P)) :=
  evs.map (Option.map (report D.matchPacket))

theorem callNext_eq {it : ParserIter T} (h : ParserIter.Ok M it) (hM : D.maxPayloadLen + 8 ≤ M)
    (n : Nat) :
    ∃ evs it', callNext M D n it = some (.ok (answers D evs, it')) ∧ ParserIter.Ok M it' ∧
      it'.cap = it.cap ∧ evs.length = n ∧
      Run D.maxPayloadLen it.cap (it.pending M) evs (it'.pending M) := by
  induction n generalizing it with
  | zero => exact ⟨[], it, rfl, h, rfl, rfl, .nil _⟩
  | succ n ih =>
    obtain ⟨r, it1, h1, h2, h3, ev, h4, h5⟩ := ParserIter.next_eq (D := D) h hM
    obtain ⟨evs, it2, i1, i2, i3, i4, i5⟩ := ih h2
    refine ⟨ev :: evs, it2, ?_, i2, i3.trans h3, by simp [i4], .cons h5 (h3 ▸ i5)⟩
    simp only [callNext, h1, i1, h4, answers, List.map_cons]

/-- Calling `next` in two instalments. -/
theorem callNext_add {it it' : ParserIter T} {rs} {n : Nat} (m : Nat)
    (h : callNext M D n it = some (.ok (rs, it'))) :
    callNext M D (n + m) it =
      match callNext M D m it' with
      | none => none
      | some (.error e) => some (.error e)
      | some (.ok (rs', it'')) => some (.ok (rs ++ rs', it'')) := by
  induction n generalizing it rs with
  | zero =>
    simp only [callNext, Option.some.injEq, Except.ok.injEq, Prod.mk.injEq] at h
    obtain ⟨rfl, rfl⟩ := h
    rw [Nat.zero_add]
    split <;> simp_all
  | succ n ih =>
    rw [Nat.succ_add]
    simp only [callNext] at h ⊢
    match hf : ParserIter.next M D it with
    | none => rw [hf] at h; cases h
    | some (.error e) => rw [hf] at h; cases h
    | some (.ok (r, it1)) =>
      rw [hf] at h
      simp only at h ⊢
      match hs : callNext M D n it1 with
      | none => rw [hs] at h; cases h
      | some (.error e) => rw [hs] at h; cases h
      | some (.ok (rs1, it2)) =>
        rw [hs] at h
        simp only [Option.some.injEq, Except.ok.injEq, Prod.mk.injEq] at h
        obtain ⟨rfl, rfl⟩ := h
        rw [ih hs]
        cases callNext M D m it2 with
        | none => rfl
        | some r => cases r <;> rfl

/-- More calls after the first `None`: only `None`, same pending bytes. -/
theorem feed_none_more {p q : Parser T} {chunk : Bytes} {rs} (hi : LawfulBuffer.Inv M p.buf)
    (hit : ∃ it, p.consume M chunk = .ok it ∧ ParserIter.Ok M it) (hM : D.maxPayloadLen + 8 ≤ M)
    {n : Nat} (h : feed M D p chunk n = some (.ok (rs, q))) (hn : none ∈ rs) (m : Nat) :
    ∃ q', feed M D p chunk (n + m) = some (.ok (rs ++ List.replicate m none, q')) ∧
      LawfulBuffer.Inv M q'.buf ∧
      LawfulBuffer.contents M q'.buf = LawfulBuffer.contents M q.buf ∧
      maxCapacity q'.buf = maxCapacity q.buf := by
  obtain ⟨it, h1, h2⟩ := hit
  obtain ⟨ev1, it1, i1, i2, i3, i4, i5⟩ := callNext_eq (D := D) h2 hM n
  obtain ⟨b, j1, j2, j3, j4⟩ := DualBuffer.dropDual_eq i2
  have hfeq : feed M D p chunk n = some (.ok (answers D ev1, ⟨b⟩)) := by
    simp only [feed, h1, i1, j1]
  rw [h] at hfeq
  simp only [Option.some.injEq, Except.ok.injEq, Prod.mk.injEq] at hfeq
  obtain ⟨rfl, rfl⟩ := hfeq
  have hmem : none ∈ ev1 := by simpa [answers] using hn
  obtain ⟨_, s0, _, _, _, _, _, e5⟩ := run_exhausted i5 hmem
  obtain ⟨ev2, it2, k1, k2, k3, k4, k5⟩ := callNext_eq (D := D) i2 hM m
  obtain ⟨b2, l1, l2, l3, l4⟩ := DualBuffer.dropDual_eq k2
  rw [i3] at k5
  obtain ⟨m1, m2⟩ := run_none e5 k5
  have hc2 : it2.buf.cap = it1.buf.cap := k3
  refine ⟨⟨b2⟩, ?_, l2, ?_, ?_⟩
  · simp only [feed, h1, callNext_add m i1, k1, l1]
    rw [m2, k4]
    simp [answers]
  · show LawfulBuffer.contents M b2 = LawfulBuffer.contents M b
    rw [l3, j3, hc2]
    show (it2.pending M).take _ = (it1.pending M).take _
    rw [m1]
  · show maxCapacity b2 = maxCapacity b
    rw [l4, j4, hc2]

theorem consume_eq {p : Parser T} {chunk : Bytes} (hi : LawfulBuffer.Inv M p.buf)
    (hc : chunk.length ≤ M / 2)
    (hr : LawfulBuffer.Room M T ((LawfulBuffer.contents M p.buf).length + chunk.length)) :
    ∃ it, p.consume M chunk = .ok it ∧ ParserIter.Ok M it ∧ it.cap = maxCapacity p.buf ∧
      it.pending M = trim (LawfulBuffer.contents M p.buf ++ chunk) := by
  obtain ⟨h1, h2, h3⟩ := DualBuffer.new_ok (M := M) hi hc hr
  have hfind := DualBuffer.find_eq h1 SYNC_CHAR_1
  rw [h2] at hfind
  simp only [consume, DualBuffer.length_eq h1, Except.ok_bind, h2, hfind]
  rw [trim_eq]
  simp only [SYNC_CHAR_1]
  cases hf : (LawfulBuffer.contents M p.buf ++ chunk).findIdx? (· == (0xb5 : UInt8)) with
  | none =>
    exact ⟨⟨DualBuffer.new p.buf chunk⟩, rfl, h1, h3, h2⟩
  | some i =>
    obtain ⟨hlt, _⟩ := (scan_skip 0 _).2 i hf
    obtain ⟨d, e1, e2, e3, e4⟩ := DualBuffer.drain_eq (n := i) h1 (by rw [h2]; omega)
    refine ⟨⟨d⟩, ?_, e2, e4.trans h3, ?_⟩
    · simp only [e1, Except.ok_bind]; rfl
    · show DualBuffer.view M d = _
      rw [e3, h2]

theorem feed_eq {p : Parser T} {chunk : Bytes} (hi : LawfulBuffer.Inv M p.buf)
    (hc : chunk.length ≤ M / 2)
    (hr : LawfulBuffer.Room M T ((LawfulBuffer.contents M p.buf).length + chunk.length))
    (hM : D.maxPayloadLen + 8 ≤ M) (n : Nat) :
    ∃ evs p' s, feed M D p chunk n = some (.ok (answers D evs, p')) ∧
      LawfulBuffer.Inv M p'.buf ∧ maxCapacity p'.buf = maxCapacity p.buf ∧ evs.length = n ∧
      Run D.maxPayloadLen (maxCapacity p.buf) (trim (LawfulBuffer.contents M p.buf ++ chunk)) evs s ∧
      LawfulBuffer.contents M p'.buf = s.take (maxCapacity p.buf) := by
  obtain ⟨it, h1, h2, h3, h4⟩ := consume_eq (M := M) hi hc hr
  obtain ⟨evs, it', i1, i2, i3, i4, i5⟩ := callNext_eq (D := D) h2 hM n
  obtain ⟨b, j1, j2, j3, j4⟩ := DualBuffer.dropDual_eq i2
  have hcap : it'.buf.cap = maxCapacity p.buf := i3.trans h3
  rw [h3, h4] at i5
  refine ⟨evs, ⟨b⟩, it'.pending M, ?_, j2, j4.trans hcap, i4, i5, ?_⟩
  · simp only [feed, h1, i1, j1]
  · rw [j3, hcap]

/-- At each `consume` of the history the chunk is a slice Rust can form, and the buffer is not asked
to hold more than it can be asked for. -/
def SessionRoom (M : Nat) [LawfulBuffer M T] (D : Dispatch P) (p : Parser T)
    (h : List (Bytes × Nat)) : Prop :=
  ∀ h1 c n h2, h = h1 ++ (c, n) :: h2 → ∀ rs q, session M D p h1 = some (.ok (rs, q)) →
    c.length ≤ M / 2 ∧ LawfulBuffer.Room M T (q.bufferLen + c.length)

theorem session_eq {p : Parser T} {h : List (Bytes × Nat)} (hi : LawfulBuffer.Inv M p.buf)
    (hr : SessionRoom M D p h) (hM : D.maxPayloadLen + 8 ≤ M) :
    ∃ evss p', session M D p h = some (.ok (evss.map (answers D), p')) ∧
      LawfulBuffer.Inv M p'.buf ∧ maxCapacity p'.buf = maxCapacity p.buf ∧
      Hist M D.maxPayloadLen (maxCapacity p.buf) (LawfulBuffer.contents M p.buf) h evss
        (LawfulBuffer.contents M p'.buf) := by
  induction h generalizing p with
  | nil => exact ⟨[], p, rfl, hi, rfl, .nil _⟩
  | cons x rest ih =>
    obtain ⟨c, n⟩ := x
    obtain ⟨hc, hroom⟩ := hr [] c n rest rfl [] p rfl
    have hlen := LawfulBuffer.len_eq hi
    have hlenle := LawfulBuffer.len_le hi
    simp only [bufferLen, hlen] at hroom
    obtain ⟨evs, p1, s, f1, f2, f3, f4, f5, f6⟩ := feed_eq (D := D) hi hc hroom hM n
    have hr' : SessionRoom M D p1 rest := by
      intro h1 c' n' h2 he rs q hq
      refine hr ((c, n) :: h1) c' n' h2 (by rw [he]; rfl) (answers D evs :: rs) q ?_
      simp only [session, f1, hq]
    obtain ⟨evss, p', g1, g2, g3, g4⟩ := ih f2 hr'
    refine ⟨evs :: evss, p', ?_, g2, g3.trans f3, ?_⟩
    · simp only [session, f1, g1, List.map_cons]
    · rw [f3, f6] at g4
      refine .cons ?_ f5 f4 g4
      rw [List.length_append]
      omega

/-- One chunk, iterator dropped or leaked. -/
theorem feedLeak_ok {p : Parser T} {chunk : Bytes} (hi : LawfulBuffer.Inv M p.buf)
    (hc : chunk.length ≤ M / 2)
    (hr : LawfulBuffer.Room M T ((LawfulBuffer.contents M p.buf).length + chunk.length))
    (hM : D.maxPayloadLen + 8 ≤ M) (n : Nat) (leak : Bool) :
    ∃ rs p', feedLeak M D p chunk n leak = some (.ok (rs, p')) ∧
      LawfulBuffer.Inv M p'.buf := by
  obtain ⟨it, h1, h2, h3, h4⟩ := consume_eq (M := M) hi hc hr
  obtain ⟨evs, it', i1, i2, i3, i4, i5⟩ := callNext_eq (D := D) h2 hM n
  cases leak with
  | true =>
    refine ⟨answers D evs, ⟨it'.buf.buf⟩, ?_, i2.inv⟩
    simp only [feedLeak, h1, i1, if_true]
  | false =>
    obtain ⟨b, j1, j2, j3, j4⟩ := DualBuffer.dropDual_eq i2
    refine ⟨answers D evs, ⟨b⟩, ?_, j2⟩
    simp only [feedLeak, h1, i1, j1, Bool.false_eq_true, if_false]

end Parser

/-! ## What histories report -/

variable {B maxLen cap : Nat}

theorem reports_flatten (evss : List (List (Option Ev))) :
    reports evss.flatten = (evss.map reports).flatten := by
  induction evss with
  | nil => rfl
  | cons e es ih =>
    rw [List.flatten_cons, List.map_cons, List.flatten_cons, ← ih]
    simp [reports]

/-- If no byte is lost between the chunks, reports plus what is still pending is the decoding of the
whole stream. -/
theorem hist_decode {b b' : Bytes} {h : List (Bytes × Nat)} {evss : List (List (Option Ev))}
    (hh : Hist B maxLen cap b h evss b') (hf : Fits maxLen cap (b ++ fed h))
    (hk : B ≤ cap ∨ (5 ≤ cap ∧ ∀ evs ∈ evss, none ∈ evs)) :
    decode maxLen (b ++ fed h) =
      (reports evss.flatten ++ (decode maxLen b').1, (decode maxLen b').2) := by
  induction hh with
  | nil b => simp [fed, reports]
  | @cons b c n evs s rest evss b' hB hrun hn _ ih =>
    have hfed : b ++ fed ((c, n) :: rest) = (b ++ c) ++ fed rest := by simp [fed]
    rw [hfed] at hf ⊢
    have hft := fits_congr (scan_trim_append maxLen (b ++ c) (fed rest)).symm hf
    have hs : s.take cap = s := by
      apply List.take_of_length_le
      rcases hk with hk | ⟨hk1, hk2⟩
      · have h1 := (run_suffix hrun).length_le
        have h2 := (trim_suffix (b ++ c)).length_le
        omega
      · obtain ⟨k, s0, m, _, _, _, _, e5⟩ := run_exhausted hrun (hk2 _ (by simp))
        have := (step_none_length e5).1
        omega
    rw [hs] at ih
    rw [← decode_congr (scan_trim_append maxLen (b ++ c) (fed rest)),
      run_decode_append (fits_append_left hft) hrun,
      ih (run_fits hft hrun) (hk.imp_right fun h => ⟨h.1, fun e he => h.2 e (by simp [he])⟩)]
    simp [reports]

/-- After an exhausted history nothing can be decoded from what is kept. -/
theorem hist_exhausted {b b' : Bytes} {h : List (Bytes × Nat)} {evss : List (List (Option Ev))}
    (hh : Hist B maxLen cap b h evss b') (hf : Fits maxLen cap (b ++ fed h))
    (hb : decode maxLen b = ([], b)) (hc : 5 ≤ cap) (hk : ∀ evs ∈ evss, none ∈ evs) :
    decode maxLen b' = ([], b') := by
  induction hh with
  | nil b => exact hb
  | @cons b c n evs s rest evss b' hB hrun hn _ ih =>
    have hfed : b ++ fed ((c, n) :: rest) = (b ++ c) ++ fed rest := by simp [fed]
    rw [hfed] at hf
    have hft := fits_congr (scan_trim_append maxLen (b ++ c) (fed rest)).symm hf
    obtain ⟨k, s0, m, _, _, _, e4, e5⟩ := run_exhausted hrun (hk _ (by simp))
    have hs : s.take cap = s := List.take_of_length_le (by have := (step_none_length e5).1; omega)
    rw [hs] at ih
    refine ih (run_fits hft hrun) ?_ fun e he => hk e (by simp [he])
    exact (run_exhausted_decode (fits_append_left hft) hrun (hk _ (by simp))).2

end Ublox
