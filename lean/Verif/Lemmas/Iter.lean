import Verif.Spec.Iter
import Verif.Lemmas.Validate
import Verif.Lemmas.Bits
import Verif.Lemmas.Raw

namespace Ublox
open Spec

/-- An iterator that goes through a sequence of states. -/
theorem iterate_seq {σ α : Type} {next : σ → R (Option α × σ)} {st : Nat → σ} {n : Nat}
    {P : Nat → α → Prop}
    (h : ∀ i < n, ∃ x, P i x ∧ next (st i) = .ok (some x, st (i + 1)))
    (hn : next (st n) = .ok (none, st n)) :
    ∃ items : List α, items.length = n ∧ (∀ i x, items[i]? = some x → P i x) ∧
      ∀ extra, iterate next (n + extra) (st 0) =
        .ok (items.map some ++ List.replicate extra none, st n) := by
  induction n generalizing st P with
  | zero =>
    refine ⟨[], rfl, by simp, fun extra => ?_⟩
    induction extra with
    | zero => rfl
    | succ e ih =>
      simp only [Nat.zero_add] at ih ⊢
      unfold iterate
      rw [hn, Except.ok_bind]
      simp only
      rw [ih, Except.ok_bind]
      rfl
  | succ n ih =>
    obtain ⟨x, hx, e⟩ := h 0 (by omega)
    obtain ⟨items, h1, h2, h3⟩ := ih (st := fun i => st (i + 1)) (P := fun i => P (i + 1))
      (fun i hi => h (i + 1) (by omega)) hn
    refine ⟨x :: items, by simp [h1], ?_, fun extra => ?_⟩
    · intro i y hy
      cases i with
      | zero => simp at hy; rwa [← hy]
      | succ i => exact h2 i y (by simpa using hy)
    · rw [show n + 1 + extra = (n + extra) + 1 by omega]
      unfold iterate
      rw [e, Except.ok_bind]
      simp only
      rw [h3 extra, Except.ok_bind]
      rfl

theorem block_length {n : Nat} {bs : Bytes} {i : Nat} (h : n * i + n ≤ bs.length) :
    (block n bs i).length = n := by
  unfold block; rw [List.length_take, List.length_drop]; omega

theorem blocks_flatten {n : Nat} (bs : Bytes) (k : Nat) (h : bs.length = n * k) :
    ((List.range k).map (block n bs)).flatten = bs := by
  have key : ∀ j, j ≤ k → ((List.range j).map (block n bs)).flatten = bs.take (n * j) := by
    intro j hj
    induction j with
    | zero => simp
    | succ j ih =>
      rw [List.range_succ, List.map_append, List.flatten_append, ih (by omega), Nat.mul_succ,
        List.take_add]
      simp [block]
  rw [key k (Nat.le_refl k), ← h, List.take_length]

theorem u32FromSlice_eq {bs : Bytes} (h : bs.length = 4) :
    ∃ w : UInt32, u32FromSlice bs = .ok w ∧ w.toNat = leNat bs := by
  match bs, h with
  | [a, b, c, d], _ => exact ⟨u32FromLe a b c d, rfl, by rw [u32FromLe_toNat, leNat4]⟩

theorem u8TryFrom_eq {x : UInt32} {n : Nat} (h : x.toNat = n) (hn : n < 256) :
    ∃ b : UInt8, u8TryFrom x = .ok b ∧ b.toNat = n := by
  refine ⟨UInt8.ofNat x.toNat, by unfold u8TryFrom; rw [if_pos (by omega)], ?_⟩
  rw [UInt8.toNat_ofNat', h]; omega

theorem field_lt (x lo n : Nat) : field x lo n < 2 ^ n := Nat.mod_lt _ (Nat.pow_pos (by omega))

theorem u32_and_shr (x : UInt32) : ((x &&& 0x3F000000) >>> 24).toNat = field x.toNat 24 6 := by
  have e : (x &&& 0x3F000000) >>> 24 = (x >>> UInt32.ofNat 24) &&& UInt32.ofNat (2 ^ 6 - 1) := by
    apply UInt32.toNat.inj
    simp only [UInt32.toNat_and, UInt32.toNat_shiftRight, Nat.shiftRight_and_distrib]
    rfl
  rw [e, u32_shr_and x 24 6 (by omega) (by omega)]

/-- One step of an iterator that is before the `i`-th block. -/
def IterKind.at (k : IterKind) (data : Bytes) (i : Nat) : IterState :=
  match k with
  | .navSat | .monVerExt => .offset data (blockSize k * i)
  | _ => .chunks (data.drop (blockSize k * i))

theorem chunksNext_block {n : Nat} {data : Bytes} {i : Nat} (h : n * i + n ≤ data.length) :
    chunksNext n (data.drop (n * i)) = (some (block n data i), data.drop (n * (i + 1))) := by
  unfold chunksNext
  rw [if_neg (by rw [List.length_drop]; omega), List.drop_drop]
  rfl

theorem chunksNext_end {n : Nat} (hn : 0 < n) {data : Bytes} {i : Nat} (h : data.length = n * i) :
    chunksNext n (data.drop (n * i)) = (none, data.drop (n * i)) := by
  unfold chunksNext
  rw [if_pos (by rw [List.length_drop]; omega)]

theorem new_eq {k : IterKind} {data : Bytes} (h : blockSize k ∣ data.length) :
    k.new data = k.at data 0 := by
  have hz := Nat.mod_eq_zero_of_dvd h
  cases k <;> simp_all [IterKind.new, IterKind.at, blockSize]

theorem next_end {k : IterKind} {data : Bytes} {M i : Nat} (h : data.length = blockSize k * i) :
    k.next M (k.at data i) = .ok (none, k.at data i) := by
  cases k <;> simp only [IterKind.next, IterKind.at]
  · rw [if_neg (by omega)]
  · rw [if_neg (by omega)]
  all_goals
    simp only [blockSize] at h ⊢
    rw [chunksNext_end (by omega) h]

theorem next_block {k : IterKind} {data : Bytes} {M i : Nat} (hM : data.length ≤ M)
    (h : blockSize k * i + blockSize k ≤ data.length)
    (hs : k = .monVerExt → ∃ s, CStr (block 30 data i) s) :
    ∃ x, ItemOf k (block (blockSize k) data i) x ∧
      k.next M (k.at data i) = .ok (some x, k.at data (i + 1)) := by
  have hl := block_length h
  cases k with
  | navSat =>
    simp only [blockSize] at h hl ⊢
    refine ⟨.sv (block 12 data i), rfl, ?_⟩
    simp only [IterKind.next, IterKind.at, blockSize]
    rw [if_pos (by omega), uadd_ok (by omega), Except.ok_bind,
      sliceRange_ok (by omega) (by omega), Except.ok_bind, Except.ok_bind]
    simp only [block, Nat.add_sub_cancel_left, Nat.mul_succ]
    rfl
  | monVerExt =>
    simp only [blockSize] at h hl ⊢
    obtain ⟨s, hs⟩ := hs rfl
    refine ⟨.str s, hs, ?_⟩
    simp only [IterKind.next, IterKind.at, blockSize]
    rw [if_pos (by omega), uadd_ok (by omega), Except.ok_bind,
      sliceRange_ok (by omega) (by omega), Except.ok_bind, Except.ok_bind]
    have e := convertToStrUnchecked_eq hs
    simp only [block] at e
    simp only [Nat.add_sub_cancel_left, Nat.mul_succ]
    rw [e]
    rfl
  | esfMeas =>
    simp only [blockSize] at h hl ⊢
    obtain ⟨w, hw, hw'⟩ := u32FromSlice_eq hl
    obtain ⟨b, hb, hb'⟩ := u8TryFrom_eq (u32_and_shr w) (by have := field_lt w.toNat 24 6; omega)
    refine ⟨.esfMeas b (w &&& 0xFFFFFF), ?_, ?_⟩
    · unfold ItemOf
      simp only
      rw [← hw']
      exact ⟨hb', u32_and w 24 (by omega)⟩
    · simp only [IterKind.next, IterKind.at, blockSize]
      rw [chunksNext_block h]
      simp only
      rw [hw, Except.ok_bind, hb, Except.ok_bind]
      rfl
  | esfRaw =>
    simp only [blockSize] at h hl ⊢
    obtain ⟨w, hw, hw'⟩ := u32FromSlice_eq (bs := (block 8 data i).take 4) (by simp; omega)
    obtain ⟨t, ht, ht'⟩ := u32FromSlice_eq (bs := (block 8 data i).drop 4) (by simp; omega)
    obtain ⟨b, hb, hb'⟩ := u8TryFrom_eq (u32_shr_and w 24 8 (by omega) (by omega))
      (by have := field_lt w.toNat 24 8; omega)
    refine ⟨.esfRaw b (w &&& 0xFFFFFF) t, ?_, ?_⟩
    · unfold ItemOf
      simp only
      rw [← hw']
      exact ⟨hb', u32_and w 24 (by omega), ht'⟩
    · simp only [IterKind.next, IterKind.at, blockSize]
      rw [chunksNext_block h]
      simp only
      rw [sliceRange_ok (by omega) (by omega), Except.ok_bind, List.drop_zero, Nat.sub_zero, hw,
        Except.ok_bind, sliceRange_ok (by omega) (by omega), Except.ok_bind,
        List.take_of_length_le (by simp; omega), ht, Except.ok_bind]
      have hb2 : u8TryFrom (w >>> 24 &&& 255) = .ok b := hb
      rw [hb2]
      rfl
  | rxmRawx =>
    simp only [blockSize] at h hl ⊢
    refine ⟨.rawx (block 32 data i), rfl, ?_⟩
    simp only [IterKind.next, IterKind.at, blockSize]
    rw [chunksNext_block h]
  | dwrd =>
    simp only [blockSize] at h hl ⊢
    obtain ⟨w, hw, hw'⟩ := u32FromSlice_eq hl
    refine ⟨.word w, hw', ?_⟩
    simp only [IterKind.next, IterKind.at, blockSize]
    rw [chunksNext_block h]
    simp only
    rw [hw, Except.ok_bind]
    rfl

theorem visits {k : IterKind} {data : Bytes} {M : Nat} (hM : data.length ≤ M)
    (hd : blockSize k ∣ data.length)
    (hs : k = .monVerExt → ∀ i < data.length / 30, ∃ s, CStr (block 30 data i) s) :
    Visits M k data := by
  obtain ⟨n, hn⟩ := hd
  have hpos : 0 < blockSize k := by cases k <;> decide
  have hdiv : data.length / blockSize k = n := by rw [hn, Nat.mul_div_cancel_left _ hpos]
  obtain ⟨items, h1, h2, h3⟩ := iterate_seq (next := k.next M) (st := k.at data) (n := n)
    (P := fun i x => ItemOf k (block (blockSize k) data i) x)
    (fun i hi => next_block hM (by
        rw [hn, ← Nat.mul_succ]; exact Nat.mul_le_mul_left _ hi) (by
        intro hk
        subst hk
        exact hs rfl i (by simp only [blockSize] at hdiv; omega)))
    (next_end hn)
  refine ⟨items, by rw [h1, hdiv], h2, by rw [h1]; exact blocks_flatten data n hn, fun extra => ?_⟩
  rw [h1, new_eq ⟨n, hn⟩]
  exact ⟨_, h3 extra⟩

end Ublox
