import Verif.Model.Buffer

/-!
# Contract of underlying buffers, and that the two buffers of the crate fulfil it
-/

namespace Ublox

open UnderlyingBuffer (len maxCapacity)

/-- What the documentation of the trait `UnderlyingBuffer` (`ublox/src/parser.rs:15-52`) promises,
in terms of the list of stored bytes.  `Room n`: the buffer type can be asked to deal with `n` bytes
in total without a panic. -/
class LawfulBuffer (M : Nat) (T : Type) [UnderlyingBuffer T] where
  Inv : T → Prop
  contents : T → Bytes
  Room : Nat → Prop
  room_mono : ∀ {m n}, m ≤ n → Room n → Room m
  len_eq : ∀ {b}, Inv b → len b = (contents b).length
  len_le_cap : ∀ {b}, Inv b → len b ≤ maxCapacity b
  cap_le : ∀ {b}, Inv b → maxCapacity b ≤ M
  len_le : ∀ {b}, Inv b → len b ≤ M / 2
  index_eq : ∀ {b i}, Inv b → (h : i < (contents b).length) →
    UnderlyingBuffer.index b i = .ok (contents b)[i]
  range_eq : ∀ {b s e}, Inv b → s ≤ e → e ≤ (contents b).length →
    UnderlyingBuffer.range b s e = .ok (((contents b).drop s).take (e - s))
  clear_eq : ∀ {b}, Inv b → Inv (UnderlyingBuffer.clear b) ∧
    contents (UnderlyingBuffer.clear b) = [] ∧
    maxCapacity (UnderlyingBuffer.clear b) = maxCapacity b
  find_eq : ∀ {b v}, Inv b →
    UnderlyingBuffer.find b v = .ok ((contents b).findIdx? (· == v))
  drain_eq : ∀ {b n}, Inv b → n ≤ (contents b).length →
    ∃ b', UnderlyingBuffer.drain b n = .ok b' ∧ Inv b' ∧ contents b' = (contents b).drop n ∧
      maxCapacity b' = maxCapacity b
  extend_eq : ∀ {b xs}, Inv b → Room ((contents b).length + xs.length) →
    ∃ b', UnderlyingBuffer.extendFromSlice b xs =
        .ok (b', xs.length - min xs.length (maxCapacity b - len b)) ∧ Inv b' ∧
      contents b' = contents b ++ xs.take (maxCapacity b - len b) ∧
      maxCapacity b' = maxCapacity b

/-! ## Small lemmas about the checked operations -/

theorem uadd_ok {M a b : Nat} (h : a + b ≤ M) : uadd M a b = .ok (a + b) := if_pos h

theorem usub_ok {a b : Nat} (h : b ≤ a) : usub a b = .ok (a - b) := if_pos h

theorem getByte_ok {xs : Bytes} {i : Nat} (h : i < xs.length) : getByte xs i = .ok xs[i] := by
  simp [getByte, List.getElem?_eq_getElem h]

theorem sliceRange_ok {xs : Bytes} {s e : Nat} (h : s ≤ e) (h2 : e ≤ xs.length) :
    sliceRange xs s e = .ok ((xs.drop s).take (e - s)) := if_pos ⟨h, h2⟩

theorem sliceFrom_ok {xs : Bytes} {s : Nat} (h : s ≤ xs.length) :
    sliceFrom xs s = .ok (xs.drop s) := if_pos h

theorem Except.ok_bind {α β : Type} (a : α) (f : α → R β) :
    (Except.ok a >>= f) = f a := rfl

/-- The index search finds what `List.findIdx?` finds. -/
theorem findIndex_eq (idx : Nat → R UInt8) (value : UInt8) (xs : Bytes) (start : Nat)
    (h : ∀ i (hi : i < xs.length), idx (start + i) = .ok xs[i]) :
    findIndex idx value start xs.length =
      .ok ((xs.findIdx? (· == value)).map (· + start)) := by
  induction xs generalizing start with
  | nil => simp [findIndex]
  | cons x xs ih =>
    have h0 := h 0 (by simp)
    simp only [Nat.add_zero, List.getElem_cons_zero] at h0
    simp only [List.length_cons, findIndex, h0]
    rw [Except.ok_bind]
    by_cases hx : (x == value) = true
    · simp [hx, List.findIdx?_cons]; rfl
    · simp only [hx, Bool.false_eq_true, if_false]
      rw [ih (start + 1)]
      · simp [List.findIdx?_cons, hx, Option.map_map]
        congr 1
        funext i
        simp; omega
      · intro i hi
        have := h (i + 1) (by simpa using hi)
        simpa [Nat.add_assoc, Nat.add_comm, Nat.add_left_comm] using this

/-! ## `Vec<u8>` -/

instance VecBuf.lawful (M : Nat) : LawfulBuffer M (VecBuf M) where
  Inv v := v.bytes.length ≤ M / 2
  contents v := v.bytes
  Room n := n ≤ M / 2
  room_mono h h' := Nat.le_trans h h'
  len_eq _ := rfl
  len_le_cap {b} h := by simp only [len, maxCapacity]; omega
  cap_le _ := Nat.le_refl _
  len_le h := h
  index_eq _ h := getByte_ok h
  range_eq _ h h2 := sliceRange_ok h h2
  clear_eq _ := ⟨Nat.zero_le _, rfl, rfl⟩
  find_eq _ := rfl
  drain_eq {b n} h hn := by
    refine ⟨⟨b.bytes.drop n⟩, if_pos hn, ?_, rfl, rfl⟩
    simp only [List.length_drop]; omega
  extend_eq {b xs} h hr := by
    refine ⟨⟨b.bytes ++ xs⟩, ?_, ?_, ?_, rfl⟩
    · simp only [UnderlyingBuffer.extendFromSlice, len, maxCapacity]
      rw [if_pos hr]
      congr 2; omega
    · simpa using hr
    · simp only [len, maxCapacity]
      rw [List.take_of_length_le]
      omega

/-! ## `FixedLinearBuffer` -/

namespace FixedLinearBuffer

variable {M : Nat}

theorem extendFromSlice_eq (f : FixedLinearBuffer M) (xs : Bytes) (h : f.len ≤ f.buffer.length)
    (hM : f.buffer.length ≤ M) :
    f.extendFromSlice xs = .ok
      (⟨f.buffer.take f.len ++ xs.take (f.buffer.length - f.len) ++
          f.buffer.drop (f.len + min xs.length (f.buffer.length - f.len)),
        f.len + min xs.length (f.buffer.length - f.len)⟩,
       xs.length - min xs.length (f.buffer.length - f.len)) := by
  simp only [extendFromSlice, usub_ok h, Except.ok_bind]
  rw [usub_ok (by omega), Except.ok_bind, uadd_ok (by omega), Except.ok_bind,
    sliceRange_ok (by omega) (by omega), Except.ok_bind, sliceRange_ok (by omega) (by omega),
    Except.ok_bind, if_neg (by simp)]
  have : xs.take (min xs.length (f.buffer.length - f.len)) =
      xs.take (f.buffer.length - f.len) := by
    rcases Nat.le_total xs.length (f.buffer.length - f.len) with h1 | h1
    · rw [Nat.min_eq_left h1, List.take_of_length_le h1, List.take_of_length_le (Nat.le_refl _)]
    · rw [Nat.min_eq_right h1]
  simp [this]
  rfl

end FixedLinearBuffer

instance FixedLinearBuffer.lawful (M : Nat) : LawfulBuffer M (FixedLinearBuffer M) where
  Inv f := f.len ≤ f.buffer.length ∧ f.buffer.length ≤ M / 2
  contents f := f.buffer.take f.len
  Room _ := True
  room_mono _ h := h
  len_eq {b} h := by
    show b.len = _
    simp [h.1]
  len_le_cap h := h.1
  cap_le h := Nat.le_trans h.2 (Nat.div_le_self _ _)
  len_le h := Nat.le_trans h.1 h.2
  index_eq {b i} h hi := by
    simp only [List.length_take] at hi
    simp only [UnderlyingBuffer.index, FixedLinearBuffer.index]
    rw [getByte_ok (by omega)]
    simp
  range_eq {b s e} h hs he := by
    simp only [List.length_take] at he
    simp only [UnderlyingBuffer.range, FixedLinearBuffer.range]
    rw [if_neg (by omega), sliceRange_ok hs (by omega), List.drop_take, List.take_take]
    congr 2; omega
  clear_eq h := ⟨⟨Nat.zero_le _, h.2⟩, by simp [UnderlyingBuffer.clear, FixedLinearBuffer.clear],
    rfl⟩
  find_eq {b v} h := by
    simp only [UnderlyingBuffer.find, FixedLinearBuffer.find]
    have := findIndex_eq b.index v (b.buffer.take b.len) 0 (by
      intro i hi
      simp only [List.length_take] at hi
      simp only [FixedLinearBuffer.index]
      rw [getByte_ok (by omega)]
      simp)
    simpa [h.1] using this
  drain_eq {b n} h hn := by
    simp only [List.length_take] at hn
    simp only [UnderlyingBuffer.drain, FixedLinearBuffer.drain]
    by_cases hc : n ≥ b.len
    · refine ⟨⟨b.buffer, 0⟩, ?_, ⟨Nat.zero_le _, h.2⟩, ?_, rfl⟩
      · rw [if_pos hc]; rfl
      · simp [List.drop_take]; left; omega
    · rw [if_neg hc]
      have hn' : n ≤ b.len := by omega
      refine ⟨⟨(b.buffer.drop n).take (b.len - n) ++ b.buffer.drop (b.len - n), b.len - n⟩,
        ?_, ?_, ?_, ?_⟩
      · simp only [usub_ok hn', Except.ok_bind, FixedLinearBuffer.memmove]
        rw [if_pos (by omega)]
        rfl
      · simp only [List.length_append, List.length_take, List.length_drop]; omega
      · simp only
        rw [List.take_append_of_le_length (by simp; omega), List.take_take, List.drop_take]
        congr 1; omega
      · simp only [maxCapacity, List.length_append, List.length_take, List.length_drop]; omega
  extend_eq {b xs} h _ := by
    refine ⟨_, FixedLinearBuffer.extendFromSlice_eq b xs h.1 (by omega), ?_, ?_, ?_⟩
    · simp only [List.length_append, List.length_take, List.length_drop]; omega
    · simp only [UnderlyingBuffer.len, maxCapacity]
      rw [List.take_append_of_le_length (by simp; omega), List.take_of_length_le (by simp; omega)]
    · simp only [maxCapacity, List.length_append, List.length_take, List.length_drop]; omega

end Ublox
