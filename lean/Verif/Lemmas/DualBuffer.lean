import Verif.Lemmas.Buffer
import Verif.Model.DualBuffer

/-!
# `DualBuffer` behaves like one list of bytes
-/

namespace Ublox

open UnderlyingBuffer (len maxCapacity)

namespace DualBuffer

variable {T : Type} [UnderlyingBuffer T] {M : Nat} [LawfulBuffer M T]

/-- Invariant of a `DualBuffer` between two operations. -/
structure Ok (M : Nat) [LawfulBuffer M T] (d : DualBuffer T) : Prop where
  inv : LawfulBuffer.Inv M d.buf
  off_le : d.off ≤ (LawfulBuffer.contents M d.buf).length
  newOff_le : d.newOff ≤ d.newBuf.length
  new_le : d.newBuf.length ≤ M / 2
  room : LawfulBuffer.Room M T
    ((LawfulBuffer.contents M d.buf).length + (d.newBuf.length - d.newOff))

/-- The bytes that can be seen through a `DualBuffer`. -/
def view (M : Nat) [LawfulBuffer M T] (d : DualBuffer T) : Bytes :=
  (LawfulBuffer.contents M d.buf).drop d.off ++ d.newBuf.drop d.newOff

/-- Capacity of the underlying buffer. -/
def cap (d : DualBuffer T) : Nat := maxCapacity d.buf

theorem view_length (d : DualBuffer T) :
    (view M d).length = ((LawfulBuffer.contents M d.buf).length - d.off) +
      (d.newBuf.length - d.newOff) := by
  simp [view]

section
variable {d : DualBuffer T} (h : Ok M d)
include h

theorem Ok.len_eq : len d.buf = (LawfulBuffer.contents M d.buf).length := LawfulBuffer.len_eq h.inv

theorem Ok.clen_le : (LawfulBuffer.contents M d.buf).length ≤ M / 2 := by
  have := LawfulBuffer.len_le h.inv
  rwa [LawfulBuffer.len_eq h.inv] at this

theorem Ok.clen_le_cap : (LawfulBuffer.contents M d.buf).length ≤ maxCapacity d.buf := by
  have := LawfulBuffer.len_le_cap h.inv
  rwa [LawfulBuffer.len_eq h.inv] at this

theorem view_length_le : (view M d).length ≤ M := by
  have h1 := h.clen_le
  have h2 := h.new_le
  rw [view_length]
  omega

theorem length_eq : d.length M = .ok (view M d).length := by
  have h1 := h.clen_le
  have h2 := h.new_le
  have h3 := h.off_le
  have h4 := h.newOff_le
  simp only [length, h.len_eq, view_length]
  rw [usub_ok h3, Except.ok_bind, uadd_ok (by omega), Except.ok_bind, usub_ok (by omega)]
  congr 1; omega

theorem index_eq {i : Nat} (hi : i < (view M d).length) : d.index M i = .ok (view M d)[i] := by
  have h1 := h.clen_le
  have h2 := h.new_le
  have h3 := h.off_le
  have h4 := h.newOff_le
  have hi' := hi
  rw [view_length] at hi'
  simp only [index, h.len_eq]
  rw [uadd_ok (by omega), Except.ok_bind]
  by_cases hc : d.off + i < (LawfulBuffer.contents M d.buf).length
  · rw [if_pos hc, uadd_ok (by omega), Except.ok_bind, LawfulBuffer.index_eq h.inv (by omega)]
    simp only [view]
    rw [List.getElem_append_left (by simp; omega)]
    simp [Nat.add_comm]
  · rw [if_neg hc, uadd_ok (by omega), Except.ok_bind, usub_ok (by omega), Except.ok_bind,
      usub_ok (by omega), Except.ok_bind, getByte_ok (by omega)]
    simp only [view]
    rw [List.getElem_append_right (by simp; omega)]
    simp only [List.length_drop, List.getElem_drop]
    congr 2; omega

theorem find_eq (v : UInt8) :
    findIndex (d.index M) v 0 (view M d).length = .ok ((view M d).findIdx? (· == v)) := by
  have := findIndex_eq (d.index M) v (view M d) 0 (by
    intro i hi; rw [Nat.zero_add]; exact index_eq h hi)
  simpa using this

theorem drain_eq {n : Nat} (hn : n ≤ (view M d).length) :
    ∃ d', d.drain M n = .ok d' ∧ Ok M d' ∧ view M d' = (view M d).drop n ∧
      cap d' = cap d := by
  have h1 := h.clen_le
  have h2 := h.new_le
  have h3 := h.off_le
  have h4 := h.newOff_le
  rw [view_length] at hn
  refine ⟨⟨d.buf, d.off + min ((LawfulBuffer.contents M d.buf).length - d.off) n, d.newBuf,
    d.newOff + (n - min ((LawfulBuffer.contents M d.buf).length - d.off) n)⟩, ?_, ?_, ?_, rfl⟩
  · simp only [drain, h.len_eq]
    rw [usub_ok h3, Except.ok_bind, uadd_ok (by omega), Except.ok_bind, uadd_ok (by omega),
      Except.ok_bind]
    rfl
  · refine ⟨h.inv, ?_, ?_, h.new_le, LawfulBuffer.room_mono ?_ h.room⟩ <;> simp only <;> omega
  · simp only [view]
    rw [List.drop_append]
    simp only [List.drop_drop, List.length_drop]
    congr 1
    · rcases Nat.le_total n ((LawfulBuffer.contents M d.buf).length - d.off) with hc | hc
      · rw [Nat.min_eq_right hc]
      · rw [Nat.min_eq_left hc, List.drop_of_length_le (by omega), List.drop_of_length_le (by omega)]
    · congr 1; omega

theorem clear_eq : ∃ d', d.clear M = .ok d' ∧ Ok M d' ∧ view M d' = [] ∧ cap d' = cap d := by
  obtain ⟨d', e, o, v, c⟩ := drain_eq h (Nat.le_refl _)
  refine ⟨d', ?_, o, ?_, c⟩
  · simp only [clear, length_eq h, Except.ok_bind, e]
  · simpa using v

theorem potentialLostBytes_eq :
    d.potentialLostBytes M = .ok ((view M d).length - cap d) := by
  simp only [potentialLostBytes, length_eq h, Except.ok_bind, cap]
  split
  · rw [Nat.sub_eq_zero_of_le (by assumption)]; rfl
  · rw [usub_ok (by omega)]

theorem canDrainAndTake_eq {dr tk : Nat} (hd : dr ≤ (view M d).length) :
    ∃ r, d.canDrainAndTake M dr tk = .ok r ∧
      (r = true → dr + tk ≤ (view M d).length ∧
        (tk ≤ cap d ∨ dr + tk ≤ len d.buf - d.off ∨ len d.buf - d.off ≤ dr)) ∧
      (r = false → (view M d).length < dr + tk ∨ cap d < tk) := by
  have h1 := h.clen_le
  have h2 := h.new_le
  have h3 := h.off_le
  have h4 := h.newOff_le
  have h5 := h.clen_le_cap
  have hl := h.len_eq
  rw [view_length] at hd
  simp only [canDrainAndTake, view_length, cap, hl]
  rw [usub_ok h3, Except.ok_bind, uadd_ok (by omega), Except.ok_bind, uadd_ok (by omega),
    Except.ok_bind, usub_ok (by omega), Except.ok_bind, uadd_ok (by omega), Except.ok_bind,
    usub_ok (by omega), Except.ok_bind]
  split
  · exact ⟨false, rfl, by simp, by intro _; omega⟩
  · simp only [beq_iff_eq, Except.ok_bind]
    split
    · exact ⟨true, rfl, by intro _; omega, by simp⟩
    · split
      · exact ⟨true, rfl, by intro _; omega, by simp⟩
      · rw [usub_ok (by omega)]
        simp only [Except.ok_bind]
        split
        · exact ⟨false, rfl, by simp, by intro _; omega⟩
        · exact ⟨true, rfl, by intro _; omega, by simp⟩

theorem peekRaw_eq {s e : Nat} (hs : s ≤ e) (he : e ≤ (view M d).length) :
    ∃ a b, d.peekRaw M s e = .ok (a, b) ∧ a ++ b = ((view M d).drop s).take (e - s) := by
  have h1 := h.clen_le
  have h2 := h.new_le
  have h3 := h.off_le
  have h4 := h.newOff_le
  rw [view_length] at he
  have hview : ((view M d).drop s).take (e - s) =
      (((LawfulBuffer.contents M d.buf).drop (s + d.off)).take
        (min (LawfulBuffer.contents M d.buf).length (e + d.off) - (s + d.off))) ++
      ((d.newBuf.drop (d.newOff + (s - ((LawfulBuffer.contents M d.buf).length - d.off)))).take
        (e - ((LawfulBuffer.contents M d.buf).length - d.off) + d.newOff -
          (d.newOff + (s - ((LawfulBuffer.contents M d.buf).length - d.off))))) := by
    simp only [view]
    rw [List.drop_append, List.take_append]
    simp only [List.drop_drop, List.length_drop]
    congr 1
    · rw [Nat.add_comm d.off s]
      rw [List.take_eq_take_iff]
      simp only [List.length_drop]; omega
    · rw [List.take_eq_take_iff]
      simp only [List.length_drop]; omega
  rw [hview]
  simp only [peekRaw, h.len_eq]
  rw [usub_ok h3]
  simp only [Except.ok_bind]
  by_cases c1 : s ≥ (LawfulBuffer.contents M d.buf).length - d.off
  · have e1 : ((LawfulBuffer.contents M d.buf).drop (s + d.off)) = [] :=
      List.drop_of_length_le (by omega)
    by_cases c2 : e ≤ (LawfulBuffer.contents M d.buf).length - d.off
    · refine ⟨[], [], ?_, ?_⟩
      · rw [if_pos c1, pure_bind, if_pos c2]; rfl
      · have : e - ((LawfulBuffer.contents M d.buf).length - d.off) + d.newOff -
          (d.newOff + (s - ((LawfulBuffer.contents M d.buf).length - d.off))) = 0 := by omega
        simp [e1, this]
    · rw [e1, List.take_nil]
      refine ⟨[], _, ?_, rfl⟩
      · rw [if_pos c1, pure_bind, if_neg c2, uadd_ok (by omega), Except.ok_bind, usub_ok (by omega),
          Except.ok_bind, uadd_ok (by omega), Except.ok_bind,
          sliceRange_ok (by omega) (by omega)]
        rfl
  · by_cases c2 : e ≤ (LawfulBuffer.contents M d.buf).length - d.off
    · have : e - ((LawfulBuffer.contents M d.buf).length - d.off) + d.newOff -
          (d.newOff + (s - ((LawfulBuffer.contents M d.buf).length - d.off))) = 0 := by omega
      rw [this, List.take_zero]
      refine ⟨_, [], ?_, rfl⟩
      · rw [if_neg c1, uadd_ok (by omega), Except.ok_bind, uadd_ok (by omega),
          Except.ok_bind, LawfulBuffer.range_eq h.inv (by omega) (by omega), Except.ok_bind,
          if_pos c2]
        rfl
    · refine ⟨_, _, ?_, rfl⟩
      rw [if_neg c1, uadd_ok (by omega), Except.ok_bind, uadd_ok (by omega),
        Except.ok_bind, LawfulBuffer.range_eq h.inv (by omega) (by omega), Except.ok_bind,
        if_neg c2, uadd_ok (by omega), Except.ok_bind, usub_ok (by omega),
        Except.ok_bind, uadd_ok (by omega), Except.ok_bind,
        sliceRange_ok (by omega) (by omega)]
      rfl

theorem take_eq {n : Nat} (hn : n ≤ (view M d).length)
    (hfit : n ≤ cap d ∨ n ≤ len d.buf - d.off ∨ len d.buf - d.off = 0) :
    ∃ d', d.take M n = .ok (.ok ((view M d).take n), d') ∧ Ok M d' ∧
      view M d' = (view M d).drop n ∧ cap d' = cap d := by
  have h1 := h.clen_le
  have h2 := h.new_le
  have h3 := h.off_le
  have h4 := h.newOff_le
  have h5 := h.clen_le_cap
  have hl := h.len_eq
  have hroom := h.room
  rw [view_length] at hn
  simp only [cap, hl] at hfit
  simp only [take, hl]
  rw [usub_ok h3, Except.ok_bind, usub_ok h4, Except.ok_bind, if_neg (by omega)]
  simp only [beq_iff_eq]
  by_cases c1 : min ((LawfulBuffer.contents M d.buf).length - d.off) n = 0
  · rw [if_pos c1]
    have hcn : d.newOff + n ≤ d.newBuf.length := by omega
    refine ⟨⟨d.buf, d.off, d.newBuf, d.newOff + n⟩, ?_, ?_, ?_, rfl⟩
    · rw [uadd_ok (by omega)]
      simp only [Except.ok_bind]
      rw [sliceRange_ok (by omega) (by omega)]
      simp only [Except.ok_bind, view]
      rw [List.take_append]
      simp only [List.length_drop]
      have e1 : ((LawfulBuffer.contents M d.buf).drop d.off).take n = [] := by
        rw [← List.length_eq_zero_iff]; simp only [List.length_take, List.length_drop]; omega
      rw [e1, List.nil_append]
      have : d.newOff + n - d.newOff = n - ((LawfulBuffer.contents M d.buf).length - d.off) := by
        omega
      rw [this]
      rfl
    · exact ⟨h.inv, h3, hcn, h2, LawfulBuffer.room_mono (by simp only; omega) hroom⟩
    · simp only [view]
      rw [List.drop_append]
      simp only [List.drop_drop, List.length_drop]
      congr 1
      · rcases Nat.eq_zero_or_pos n with rfl | hp
        · rfl
        · rw [List.drop_of_length_le (by omega), List.drop_of_length_le (by omega)]
      · congr 1; omega
  · rw [if_neg c1]
    by_cases c2 : n - min ((LawfulBuffer.contents M d.buf).length - d.off) n = 0
    · rw [if_pos c2]
      refine ⟨⟨d.buf, d.off + n, d.newBuf, d.newOff⟩, ?_, ?_, ?_, rfl⟩
      · rw [uadd_ok (by omega)]
        simp only [Except.ok_bind]
        rw [LawfulBuffer.range_eq h.inv (by omega) (by omega)]
        simp only [Except.ok_bind, view]
        rw [List.take_append_of_le_length (by simp; omega), Nat.add_sub_cancel_left]
        rfl
      · exact ⟨h.inv, by simp only; omega, h4, h2, hroom⟩
      · simp only [view]
        rw [List.drop_append_of_le_length (by simp; omega), List.drop_drop]
    · rw [if_neg c2, if_neg (by omega), usub_ok h5]
      simp only [Except.ok_bind]
      by_cases c3 : n - min ((LawfulBuffer.contents M d.buf).length - d.off) n <
          maxCapacity d.buf - (LawfulBuffer.contents M d.buf).length
      · rw [if_pos c3, sliceFrom_ok h4, Except.ok_bind]
        obtain ⟨b', hb1, hb2, hb3, hb4⟩ := LawfulBuffer.extend_eq (M := M) (b := d.buf)
          (xs := d.newBuf.drop d.newOff) h.inv (by simpa using hroom)
        rw [hl] at hb1 hb3
        refine ⟨⟨b', d.off + n, d.newBuf, d.newOff + min (d.newBuf.length - d.newOff)
          (maxCapacity d.buf - (LawfulBuffer.contents M d.buf).length)⟩, ?_, ?_, ?_, hb4⟩
        · rw [hb1]
          simp only [Except.ok_bind, List.length_drop]
          rw [usub_ok (by omega), Except.ok_bind, uadd_ok (by omega), Except.ok_bind,
            uadd_ok (by omega), Except.ok_bind, Except.ok_bind,
            LawfulBuffer.range_eq hb2 (by omega) (by
              rw [hb3]; simp only [List.length_append, List.length_take, List.length_drop]; omega)]
          simp only [Except.ok_bind, hb3, view]
          have : d.newBuf.length - d.newOff - (d.newBuf.length - d.newOff -
              min (d.newBuf.length - d.newOff)
                (maxCapacity d.buf - (LawfulBuffer.contents M d.buf).length)) =
              min (d.newBuf.length - d.newOff)
                (maxCapacity d.buf - (LawfulBuffer.contents M d.buf).length) := by omega
          rw [this, List.drop_append_of_le_length h3, List.take_append, List.take_append,
            List.take_take, List.length_drop, Nat.add_sub_cancel_left, Nat.min_eq_left (by omega)]
          rfl
        · refine ⟨hb2, ?_, ?_, h2, LawfulBuffer.room_mono ?_ hroom⟩
          · rw [hb3]; simp only [List.length_append, List.length_take, List.length_drop]; omega
          · simp only; omega
          · rw [hb3]; simp only [List.length_append, List.length_take, List.length_drop]; omega
        · simp only [view, hb3]
          rw [List.drop_append, List.drop_append, List.drop_drop, List.length_drop,
            List.append_assoc]
          congr 1
          have e3 : d.off + n - (LawfulBuffer.contents M d.buf).length =
            n - ((LawfulBuffer.contents M d.buf).length - d.off) := by omega
          rw [e3]
          conv => rhs; rw [← List.take_append_drop
            (maxCapacity d.buf - (LawfulBuffer.contents M d.buf).length) (d.newBuf.drop d.newOff)]
          rw [List.drop_append]
          congr 1
          rw [List.length_take, List.length_drop, List.drop_drop, List.drop_drop]
          rcases Nat.le_total (d.newBuf.length - d.newOff)
            (maxCapacity d.buf - (LawfulBuffer.contents M d.buf).length) with hc | hc
          · rw [List.drop_of_length_le (by omega), List.drop_of_length_le (by omega)]
          · congr 1; omega
      · rw [if_neg c3]
        obtain ⟨b', hb1, hb2, hb3, hb4⟩ := LawfulBuffer.drain_eq (M := M) h.inv h3
        have hlb := LawfulBuffer.len_eq hb2
        have hlb' : len b' = (LawfulBuffer.contents M d.buf).length - d.off := by
          rw [hlb, hb3, List.length_drop]
        obtain ⟨b2, hc1, hc2, hc3, hc4⟩ := LawfulBuffer.extend_eq (M := M) (b := b')
          (xs := (d.newBuf.drop d.newOff).take
            (n - min ((LawfulBuffer.contents M d.buf).length - d.off) n)) hb2
          (LawfulBuffer.room_mono (by
            rw [hb3]; simp only [List.length_take, List.length_drop]; omega) hroom)
        have hc3' : LawfulBuffer.contents M b2 =
            (LawfulBuffer.contents M d.buf).drop d.off ++ (d.newBuf.drop d.newOff).take
            (n - min ((LawfulBuffer.contents M d.buf).length - d.off) n) := by
          rw [hc3, hb3, hb4, hlb', List.take_take, Nat.min_eq_right (by omega)]
        refine ⟨⟨b2, n, d.newBuf, d.newOff +
          (n - min ((LawfulBuffer.contents M d.buf).length - d.off) n)⟩, ?_, ?_, ?_,
          hc4.trans hb4⟩
        · rw [hb1, Except.ok_bind, uadd_ok (by omega), Except.ok_bind,
            sliceRange_ok (by omega) (by omega), Except.ok_bind, Nat.add_sub_cancel_left, hc1]
          simp only [Except.ok_bind]
          rw [uadd_ok (by omega), Except.ok_bind, Nat.zero_add,
            LawfulBuffer.range_eq hc2 (by omega) (by
              rw [hc3']; simp only [List.length_append, List.length_take, List.length_drop]; omega)]
          simp only [Except.ok_bind, hc3', view, List.drop_zero, Nat.sub_zero]
          rw [List.take_append, List.take_append, List.length_drop, List.take_take,
            Nat.min_eq_left (by omega)]
          rfl
        · refine ⟨hc2, ?_, ?_, h2, LawfulBuffer.room_mono ?_ hroom⟩
          · rw [hc3']; simp only [List.length_append, List.length_take, List.length_drop]; omega
          · simp only; omega
          · rw [hc3']; simp only [List.length_append, List.length_take, List.length_drop]; omega
        · simp only [view, hc3']
          rw [List.drop_append, List.drop_append, List.drop_drop, List.length_drop,
            List.drop_drop,
            List.drop_of_length_le (l := LawfulBuffer.contents M d.buf) (by omega),
            List.drop_of_length_le (l := List.take _ _)
              (by simp only [List.length_take, List.length_drop]; omega)]
          simp only [List.nil_append]
          congr 1; omega

theorem dropDual_eq : ∃ b', d.dropDual = .ok b' ∧ LawfulBuffer.Inv M b' ∧
    LawfulBuffer.contents M b' = (view M d).take (cap d) ∧ maxCapacity b' = cap d := by
  obtain ⟨b', hb1, hb2, hb3, hb4⟩ := LawfulBuffer.drain_eq (M := M) h.inv h.off_le
  have hlb : len b' = (LawfulBuffer.contents M d.buf).length - d.off := by
    rw [LawfulBuffer.len_eq hb2, hb3, List.length_drop]
  obtain ⟨b2, hc1, hc2, hc3, hc4⟩ := LawfulBuffer.extend_eq (M := M) (b := b')
    (xs := d.newBuf.drop d.newOff) hb2
    (LawfulBuffer.room_mono (by rw [hb3]; simp only [List.length_drop]; omega) h.room)
  refine ⟨b2, ?_, hc2, ?_, hc4.trans hb4⟩
  · simp only [dropDual]
    rw [hb1, Except.ok_bind, sliceFrom_ok h.newOff_le, Except.ok_bind, hc1]
    rfl
  · have := h.clen_le_cap
    rw [hc3, hb3, hb4, hlb, view, List.take_append, List.length_drop,
      List.take_of_length_le (l := (LawfulBuffer.contents M d.buf).drop d.off)
        (by simp only [cap, List.length_drop]; omega)]
    rfl

end

theorem new_ok {b : T} {xs : Bytes} (hi : LawfulBuffer.Inv M b) (hx : xs.length ≤ M / 2)
    (hr : LawfulBuffer.Room M T ((LawfulBuffer.contents M b).length + xs.length)) :
    Ok M (new b xs) ∧ view M (new b xs) = LawfulBuffer.contents M b ++ xs ∧
      cap (new b xs) = maxCapacity b :=
  ⟨⟨hi, Nat.zero_le _, Nat.zero_le _, hx, hr⟩, by simp [view, new], rfl⟩

end DualBuffer

end Ublox
