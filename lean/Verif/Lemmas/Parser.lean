import Verif.Lemmas.DualBuffer
import Verif.Lemmas.Checksum
import Verif.Spec.Report

/-!
# `ParserIter::next` refines the reference decoder
-/

namespace Ublox

open UnderlyingBuffer (len maxCapacity)
open Spec

theorem u16FromLe_eq (lo hi : UInt8) : ParserIter.u16FromLe lo hi = ckNumber (lo, hi) := by
  simp only [ParserIter.u16FromLe, ckNumber]
  apply UInt16.toNat_inj.mp
  have h1 := lo.toNat_lt
  have h2 := hi.toNat_lt
  simp only [UInt16.toNat_or, UInt16.toNat_shiftLeft, UInt8.toNat_toUInt16, UInt16.toNat_ofNat',
    UInt16.reduceToNat, Nat.reduceMod]
  rw [Nat.shiftLeft_eq, Nat.mod_eq_of_lt (a := hi.toNat * 2 ^ 8) (by omega),
    Nat.mod_eq_of_lt (by omega), Nat.or_comm]
  have := Nat.shiftLeft_add_eq_or_of_lt (b := lo.toNat) (i := 8) (by simpa using h1) hi.toNat
  rw [Nat.shiftLeft_eq] at this
  rw [← this]
  omega

/-! ## `scan` and the search for the sync byte -/

theorem scan_skip (maxLen : Nat) (s : Bytes) :
    (s.findIdx? (· == (0xb5 : UInt8)) = none → scan maxLen s = .wait []) ∧
    (∀ p, s.findIdx? (· == (0xb5 : UInt8)) = some p →
      p < s.length ∧ scan maxLen s = scan maxLen (s.drop p) ∧ ∃ t, s.drop p = 0xb5 :: t) := by
  induction s with
  | nil => simp [scan]
  | cons b t ih =>
    by_cases hb : b = 0xb5
    · subst hb
      simp [List.findIdx?_cons]
    · have hb' : (b == (0xb5 : UInt8)) = false := by simpa using hb
      have hs : scan maxLen (b :: t) = scan maxLen t := by rw [scan.eq_def]; simp [hb]
      rw [List.findIdx?_cons, hb', hs]
      constructor
      · intro h
        exact ih.1 (by simpa using h)
      · intro p hp
        simp only [Bool.false_eq_true, if_false, Option.map_eq_some_iff] at hp
        obtain ⟨q, hq, rfl⟩ := hp
        obtain ⟨h1, h2, h3⟩ := ih.2 q hq
        exact ⟨by simp; omega, by simpa using h2, by simpa using h3⟩

theorem scan_one (maxLen : Nat) : scan maxLen [0xb5] = .wait [0xb5] := by
  rw [scan.eq_def]; simp

theorem scan_second (maxLen : Nat) (c : UInt8) (u : Bytes) (h : c ≠ 0x62) :
    scan maxLen (0xb5 :: c :: u) = scan maxLen (c :: u) := by
  conv => lhs; rw [scan.eq_def]
  simp [h]

theorem scan_short (maxLen : Nat) (u : Bytes) (h : u.length < 4) :
    scan maxLen (0xb5 :: 0x62 :: u) = .wait (0xb5 :: 0x62 :: u) := by
  conv => lhs; rw [scan.eq_def]
  match u, h with
  | [], _ => simp
  | [_], _ => simp
  | [_, _], _ => simp
  | [_, _, _], _ => simp

theorem scan_header (maxLen : Nat) (c i lo hi : UInt8) (tail : Bytes) :
    scan maxLen (header c i lo hi tail) =
      if announced lo hi ≤ maxLen then .cand c i lo hi tail
      else scan maxLen (c :: i :: lo :: hi :: tail) := by
  conv => lhs; rw [scan.eq_def]
  simp [header]

/-! ## One call of `next` -/

namespace ParserIter

variable {T P : Type} [UnderlyingBuffer T] {M : Nat} [LawfulBuffer M T] {D : Dispatch P}

/-- Invariant of an iterator. -/
abbrev Ok (M : Nat) [LawfulBuffer M T] (it : ParserIter T) : Prop := DualBuffer.Ok M it.buf

/-- Bytes still to be looked at. -/
abbrev pending (M : Nat) [LawfulBuffer M T] (it : ParserIter T) : Bytes := DualBuffer.view M it.buf

/-- Capacity of the parser's buffer. -/
abbrev cap (it : ParserIter T) : Nat := it.buf.cap

/-- What a call of `next` achieves. -/
def Good (M : Nat) [LawfulBuffer M T] (D : Dispatch P) (it : ParserIter T)
    (r : Option (Except ParserError P)) (it' : ParserIter T) : Prop :=
  Ok M it' ∧ it'.cap = it.cap ∧
    ∃ ev, r = ev.map (report D.matchPacket) ∧
      Step D.maxPayloadLen it.cap (pending M it) ev (pending M it')

theorem extractPacket_eq {it : ParserIter T} {s : Bytes} {c i lo hi : UInt8} {tail : Bytes}
    (h : Ok M it) (hv : pending M it = header c i lo hi tail)
    (hs : scan D.maxPayloadLen s = .cand c i lo hi tail)
    (hM : announced lo hi + 8 ≤ M) :
    ∃ r it', extractPacket M D it (announced lo hi) = .ok (r, it') ∧ Ok M it' ∧
      it'.cap = it.cap ∧ ∃ ev, r = ev.map (report D.matchPacket) ∧
        Step D.maxPayloadLen it.cap s ev (pending M it') := by
  have hlen : (pending M it).length = 6 + tail.length := by
    rw [hv]; simp [header]; omega
  have hlen' : (DualBuffer.view M it.buf).length = 6 + tail.length := hlen
  have hcap : it.cap = it.buf.cap := rfl
  obtain ⟨r, hr, hrt, hrf⟩ := DualBuffer.canDrainAndTake_eq (M := M) (d := it.buf) (dr := 6)
    (tk := announced lo hi + 2) h (by omega)
  unfold extractPacket
  rw [uadd_ok (by omega), Except.ok_bind, hr]
  simp only [Except.ok_bind]
  cases r with
  | false =>
    rw [DualBuffer.potentialLostBytes_eq h]
    simp only [Bool.not_false, if_true, Except.ok_bind]
    have hrf := hrf rfl
    by_cases hp : (pending M it).length - it.cap > 0
    · rw [if_pos hp]
      obtain ⟨d', hd1, hd2, hd3, hd4⟩ := DualBuffer.drain_eq (n := 2) h (by omega)
      refine ⟨some (.error (.outOfMemory (announced lo hi + 2))), ⟨d'⟩, ?_, hd2, hd4,
        some (.tooLarge (announced lo hi)), rfl, ?_⟩
      · rw [hd1]; rfl
      · have : pending M ⟨d'⟩ = c :: i :: lo :: hi :: tail := by
          show DualBuffer.view M d' = _
          rw [hd3]
          show (pending M it).drop 2 = _
          rw [hv]; rfl
        rw [this]
        by_cases ht : tail.length < announced lo hi + 2
        · exact .noRoom hs ht (by rw [← hv]; omega)
        · exact .noRoomComplete hs (by omega) (by
            rcases hrf with h1 | h1
            · omega
            · exact h1)
    · rw [if_neg hp]
      refine ⟨none, it, rfl, h, rfl, none, rfl, ?_⟩
      rw [hv]
      refine .incomplete hs ?_ (by rw [← hv]; omega)
      rcases hrf with h1 | h1
      · omega
      · have : it.buf.cap = it.cap := rfl
        omega
  | true =>
    obtain ⟨hr1, hr2⟩ := hrt rfl
    simp only [Bool.not_true, Bool.false_eq_true, if_false]
    rw [uadd_ok (by omega), Except.ok_bind, uadd_ok (by omega), Except.ok_bind]
    obtain ⟨a, b, hab1, hab2⟩ := DualBuffer.peekRaw_eq (M := M) (d := it.buf) (s := 2)
      (e := 4 + announced lo hi + 2) h (by omega) (by omega)
    have hab : a ++ b = covered c i lo hi tail := by
      rw [hab2]
      show ((pending M it).drop 2).take _ = _
      rw [hv]
      have : 4 + announced lo hi + 2 - 2 = announced lo hi + 4 := by omega
      rw [this]
      rfl
    rw [hab1]
    simp only [Except.ok_bind, parserChecksum_eq, hab]
    have htl : announced lo hi + 2 ≤ tail.length := by omega
    obtain ⟨x, y, after, hxy⟩ : ∃ x y after, tail.drop (announced lo hi) = x :: y :: after := by
      match hm : tail.drop (announced lo hi) with
      | [] => have := congrArg List.length hm; simp at this; omega
      | [_] => have := congrArg List.length hm; simp at this; omega
      | x :: y :: after => exact ⟨x, y, after, rfl⟩
    have hx : ∀ k, (pending M it)[6 + announced lo hi + k]? = (x :: y :: after)[k]? := by
      intro k
      rw [hv, ← hxy, List.getElem?_drop, Nat.add_assoc]
      simp [header, Nat.add_comm 6]
    have hx0 : it.buf.index M (6 + announced lo hi) = .ok x := by
      rw [DualBuffer.index_eq h (by omega)]
      have := hx 0
      rw [Nat.add_zero, List.getElem?_eq_getElem (by omega)] at this
      simpa using this
    have hx1 : it.buf.index M (6 + announced lo hi + 1) = .ok y := by
      rw [DualBuffer.index_eq h (by omega)]
      have := hx 1
      rw [List.getElem?_eq_getElem (by omega)] at this
      simpa using this
    rw [uadd_ok (by omega)]
    simp only [Except.ok_bind]
    rw [hx0, Except.ok_bind, uadd_ok (by omega)]
    simp only [Except.ok_bind]
    rw [hx1]
    simp only [Except.ok_bind]
    by_cases hck : x = ckA (covered c i lo hi tail) ∧ y = ckB (covered c i lo hi tail)
    · rw [if_neg (by simp [hck.1.symm, hck.2.symm])]
      have hi2 : it.buf.index M 2 = .ok c := by
        rw [DualBuffer.index_eq h (by omega)]
        have : (pending M it)[2]? = some c := by rw [hv]; rfl
        rw [List.getElem?_eq_getElem (by omega)] at this
        simpa using this
      have hi3 : it.buf.index M 3 = .ok i := by
        rw [DualBuffer.index_eq h (by omega)]
        have : (pending M it)[3]? = some i := by rw [hv]; rfl
        rw [List.getElem?_eq_getElem (by omega)] at this
        simpa using this
      rw [hi2, Except.ok_bind, hi3, Except.ok_bind]
      obtain ⟨d', hd1, hd2, hd3, hd4⟩ := DualBuffer.drain_eq (n := 6) h (by omega)
      have hdv : DualBuffer.view M d' = tail := by
        rw [hd3]
        show (pending M it).drop 6 = _
        rw [hv]; rfl
      -- where the cut of `drain 6` falls
      have hfit : announced lo hi + 2 ≤ d'.cap ∨ announced lo hi + 2 ≤ len d'.buf - d'.off ∨
          len d'.buf - d'.off = 0 := by
        have hd1' := hd1
        have hl := h.len_eq
        have h3 := h.off_le
        have h1 := h.clen_le
        have h2 := h.new_le
        have h4 := h.newOff_le
        have h5 : ((LawfulBuffer.contents M it.buf.buf).length - it.buf.off) +
          (it.buf.newBuf.length - it.buf.newOff) = 6 + tail.length := by
          rw [← DualBuffer.view_length]; exact hlen
        simp only [DualBuffer.drain] at hd1'
        rw [usub_ok (by omega), Except.ok_bind, uadd_ok (by omega), Except.ok_bind,
          uadd_ok (by omega), Except.ok_bind] at hd1'
        have hd1' := Except.ok.inj hd1'
        subst hd1'
        rcases hr2 with h6 | h6 | h6
        · left; exact h6
        · right; left; simp only; omega
        · right; right; simp only; omega
      obtain ⟨d2, he1, he2, he3, he4⟩ := DualBuffer.take_eq (n := announced lo hi + 2) hd2
        (by rw [hdv]; omega) hfit
      rw [hd1]
      simp only [Except.ok_bind]
      rw [he1]
      simp only [Except.ok_bind]
      rw [usub_ok (by rw [hdv]; simp; omega), Except.ok_bind,
        sliceRange_ok (by omega) (by omega), Except.ok_bind]
      refine ⟨some (D.matchPacket c i (tail.take (announced lo hi))), ⟨d2⟩, ?_, he2,
        he4.trans hd4, some (.packet c i (tail.take (announced lo hi))), rfl, ?_⟩
      · simp only [hdv, List.drop_zero, Nat.sub_zero, List.take_take, List.length_take]
        have : min (min (announced lo hi + 2) tail.length - 2) (announced lo hi + 2) =
          announced lo hi := by omega
        rw [this]
        rfl
      · have : pending M ⟨d2⟩ = after := by
          show DualBuffer.view M d2 = _
          rw [he3, hdv, ← List.drop_drop, hxy]
          rfl
        rw [this]
        exact .packet hs hxy hck.1 hck.2
    · have hne : (ckA (covered c i lo hi tail), ckB (covered c i lo hi tail)) ≠ (x, y) := by
        intro he
        have := Prod.mk.inj he
        exact hck ⟨this.1.symm, this.2.symm⟩
      rw [if_pos hne]
      obtain ⟨d', hd1, hd2, hd3, hd4⟩ := DualBuffer.drain_eq (n := 2) h (by omega)
      rw [hd1]
      refine ⟨_, ⟨d'⟩, rfl, hd2, hd4, some (.badChecksum (x, y) (ckA (covered c i lo hi tail),
        ckB (covered c i lo hi tail))), ?_, ?_⟩
      · simp [report, u16FromLe_eq]
      · have : pending M ⟨d'⟩ = c :: i :: lo :: hi :: tail := by
          show DualBuffer.view M d' = _
          rw [hd3]
          show (pending M it).drop 2 = _
          rw [hv]; rfl
        rw [this]
        exact .bad hs hxy hck

/-- A step only depends on what `scan` finds. -/
theorem step_congr {maxLen cap : Nat} {s s' : Bytes} {ev : Option Ev} {r : Bytes}
    (h : scan maxLen s = scan maxLen s') (hs : Step maxLen cap s' ev r) :
    Step maxLen cap s ev r := by
  cases hs with
  | wait h1 => exact .wait (h.trans h1)
  | incomplete h1 h2 h3 => exact .incomplete (h.trans h1) h2 h3
  | noRoom h1 h2 h3 => exact .noRoom (h.trans h1) h2 h3
  | noRoomComplete h1 h2 h3 => exact .noRoomComplete (h.trans h1) h2 h3
  | packet h1 h2 h3 h4 => exact .packet (h.trans h1) h2 h3 h4
  | bad h1 h2 h3 => exact .bad (h.trans h1) h2 h3

/-- One pass through the loop. -/
theorem nextBody_eq {it : ParserIter T} (h : Ok M it) (hM : D.maxPayloadLen + 8 ≤ M) :
    (∃ r it', nextBody M D it = .ok (.ret (r, it')) ∧ Good M D it r it') ∨
    (∃ it', nextBody M D it = .ok (.cont it') ∧ Ok M it' ∧ it'.cap = it.cap ∧
      (pending M it').length < (pending M it).length ∧
      scan D.maxPayloadLen (pending M it) = scan D.maxPayloadLen (pending M it')) := by
  unfold nextBody
  rw [DualBuffer.length_eq h]
  simp only [Except.ok_bind]
  by_cases hl : (DualBuffer.view M it.buf).length > 0
  · rw [if_pos hl]
    simp only [findSync, DualBuffer.length_eq h, Except.ok_bind, SYNC_CHAR_1,
      DualBuffer.find_eq h]
    obtain ⟨hskip0, hskip⟩ := scan_skip D.maxPayloadLen (pending M it)
    cases hf : (DualBuffer.view M it.buf).findIdx? (· == (0xb5 : UInt8)) with
    | none =>
      simp only
      obtain ⟨d', hd1, hd2, hd3, hd4⟩ := DualBuffer.clear_eq h
      rw [hd1]
      refine .inl ⟨none, ⟨d'⟩, rfl, hd2, hd4, none, rfl, ?_⟩
      have : pending M ⟨d'⟩ = [] := hd3
      rw [this]
      exact .wait (hskip0 hf)
    | some p =>
      simp only
      obtain ⟨hp1, hp2, t, hp3⟩ := hskip p hf
      obtain ⟨d', hd1, hd2, hd3, hd4⟩ := DualBuffer.drain_eq (n := p) h (by
        show p ≤ (pending M it).length; omega)
      have hv : DualBuffer.view M d' = 0xb5 :: t := by rw [hd3]; exact hp3
      have hvl : (DualBuffer.view M d').length = t.length + 1 := by rw [hv]; rfl
      have hple : t.length + 1 ≤ (pending M it).length := by
        rw [← hvl, hd3]; simp
      rw [hp3] at hp2
      rw [hd1]
      simp only [Except.ok_bind, DualBuffer.length_eq hd2, hvl]
      match t, hv, hvl, hp2, hple with
      | [], hv, hvl, hp2, hple =>
        rw [if_pos (by simp)]
        refine .inl ⟨none, ⟨d'⟩, rfl, hd2, hd4, none, rfl, ?_⟩
        rw [show pending M ⟨d'⟩ = [0xb5] from hv]
        exact .wait (hp2.trans (scan_one _))
      | c1 :: u, hv, hvl, hp2, hple =>
        rw [if_neg (by simp), DualBuffer.index_eq hd2 (by rw [hvl]; simp)]
        have hg : (DualBuffer.view M d')[1]'(by rw [hvl]; simp) = c1 := by
          simp only [hv]; rfl
        simp only [Except.ok_bind, hg]
        have hS : SYNC_CHAR_2 = 0x62 := rfl
        by_cases hc1 : c1 = 0x62
        · subst hc1
          rw [if_neg (by rw [hS]; simp)]
          by_cases hu : u.length < 4
          · have hu' : (0x62 :: u : Bytes).length + 1 < 6 := by simp; omega
            rw [if_pos hu']
            refine .inl ⟨none, ⟨d'⟩, rfl, hd2, hd4, none, rfl, ?_⟩
            rw [show pending M ⟨d'⟩ = 0xb5 :: 0x62 :: u from hv]
            exact .wait (hp2.trans (scan_short _ _ hu))
          · have hu' : ¬ (0x62 :: u : Bytes).length + 1 < 6 := by simp; omega
            rw [if_neg hu']
            match u, hu, hv, hvl, hp2, hple with
            | [], hu, _, _, _, _ => exact absurd (by simp) hu
            | [_], hu, _, _, _, _ => exact absurd (by simp) hu
            | [_, _], hu, _, _, _, _ => exact absurd (by simp) hu
            | [_, _, _], hu, _, _, _, _ => exact absurd (by simp) hu
            | c :: i :: lo :: hi :: tail, hu, hv, hvl, hp2, hple =>
              have hi4 : d'.index M 4 = .ok lo := by
                rw [DualBuffer.index_eq hd2 (by rw [hvl]; simp)]
                simp only [hv]; rfl
              have hi5 : d'.index M 5 = .ok hi := by
                rw [DualBuffer.index_eq hd2 (by rw [hvl]; simp)]
                simp only [hv]; rfl
              rw [hi4, Except.ok_bind, hi5, Except.ok_bind]
              have hann : le16 lo hi = announced lo hi := rfl
              rw [hann]
              rw [show (0xb5 :: 0x62 :: c :: i :: lo :: hi :: tail : Bytes) =
                header c i lo hi tail from rfl, scan_header] at hp2
              by_cases hmax : announced lo hi ≤ D.maxPayloadLen
              · rw [if_neg (Nat.not_lt.mpr hmax)]
                rw [if_pos hmax] at hp2
                obtain ⟨r, it', he1, he2, he3, ev, he4, he5⟩ :=
                  extractPacket_eq (D := D) (it := ⟨d'⟩) (s := pending M it) hd2 hv hp2 (by omega)
                rw [he1]
                refine .inl ⟨r, it', rfl, he2, he3.trans hd4, ev, he4, ?_⟩
                have : (⟨d'⟩ : ParserIter T).cap = it.cap := hd4
                rw [this] at he5
                exact he5
              · rw [if_pos (by omega)]
                rw [if_neg hmax] at hp2
                obtain ⟨d2, he1, he2, he3, he4⟩ := DualBuffer.drain_eq (n := 2) hd2 (by
                  rw [hvl]; simp)
                rw [he1]
                have hv2 : pending M ⟨d2⟩ = c :: i :: lo :: hi :: tail := by
                  show DualBuffer.view M d2 = _
                  rw [he3, hv]; rfl
                refine .inr ⟨⟨d2⟩, rfl, he2, he4.trans hd4, ?_, ?_⟩
                · rw [hv2]; simp at hple ⊢; omega
                · rw [hv2]; exact hp2
        · rw [if_pos (by rw [hS]; exact hc1)]
          obtain ⟨d2, he1, he2, he3, he4⟩ := DualBuffer.drain_eq (n := 1) hd2 (by
            rw [hvl]; simp)
          rw [he1]
          have hv2 : pending M ⟨d2⟩ = c1 :: u := by
            show DualBuffer.view M d2 = _
            rw [he3, hv]; rfl
          refine .inr ⟨⟨d2⟩, rfl, he2, he4.trans hd4, ?_, ?_⟩
          · rw [hv2]; simp at hple ⊢; omega
          · rw [hv2, hp2, scan_second _ _ _ hc1]
  · rw [if_neg hl]
    refine .inl ⟨none, it, rfl, h, rfl, none, rfl, ?_⟩
    have : pending M it = [] := by
      apply List.length_eq_zero_iff.mp
      show (DualBuffer.view M it.buf).length = 0
      omega
    rw [this]
    exact .wait (by rw [scan.eq_def])

/-- `next` terminates without a panic and does one step of the reference decoder. -/
theorem next_eq {it : ParserIter T} (h : Ok M it) (hM : D.maxPayloadLen + 8 ≤ M) :
    ∃ r it', next M D it = some (.ok (r, it')) ∧ Good M D it r it' := by
  generalize hn : (pending M it).length = n
  induction n using Nat.strongRecOn generalizing it with
  | ind n ih =>
    subst hn
    rcases nextBody_eq (D := D) h hM with ⟨r, it', h1, h2⟩ | ⟨it', h1, h2, h3, h4, h5⟩
    · refine ⟨r, it', ?_, h2⟩
      rw [next.eq_def, h1]
    · obtain ⟨r, it2, e1, e2, e3, ev, e4, e5⟩ := ih _ h4 h2 rfl
      refine ⟨r, it2, ?_, e2, e3.trans h3, ev, e4, ?_⟩
      · rw [next.eq_def, h1]; exact e1
      · rw [h3] at e5
        exact step_congr h5 e5

end ParserIter

end Ublox
