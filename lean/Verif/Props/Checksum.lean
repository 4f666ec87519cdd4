import Verif.Props.ParserDecode

/-!
# C15, C16: the checksum and what it detects
-/

namespace Ublox.Props

open Spec Parser
open UnderlyingBuffer (maxCapacity)

/-! ## C15 -/

/-- **C15** `ubx_checksum` is the pair of 8-bit Fletcher sums. -/
theorem c15_one_shot (xs : Bytes) : ubxChecksum xs = (ckA xs, ckB xs) := ubxChecksum_eq xs

/-- **C15** The incremental checksum of the builders over any partition of the data. -/
theorem c15_builder_pieces (pieces : List Bytes) :
    (pieces.foldl ChecksumCalc.update .default).result =
      (ckA pieces.flatten, ckB pieces.flatten) := by
  have key : ∀ (ps : List Bytes) (c : ChecksumCalc),
      ps.foldl ChecksumCalc.update c = c.update ps.flatten := by
    intro ps
    induction ps with
    | nil => intro c; rfl
    | cons p ps ih => intro c; rw [List.foldl_cons, ih, checksumCalc_update_append]; rfl
  rw [key, checksumCalc_update_eq]
  simp [ChecksumCalc.default, ChecksumCalc.result]

/-- **C15** The incremental checksum of the parser over any partition of the data. -/
theorem c15_parser_pieces (pieces : List Bytes) :
    ParserChecksum.result (pieces.foldl ParserChecksum.update ParserChecksum.new) =
      (ckA pieces.flatten, ckB pieces.flatten) := by
  have key : ∀ (ps : List Bytes) (c : ChecksumCalc),
      ps.foldl ParserChecksum.update c = ParserChecksum.update c ps.flatten := by
    intro ps
    induction ps with
    | nil => intro c; simp [parserUpdate_eq, ckA_nil, ckB_nil]
    | cons p ps ih =>
      intro c
      rw [List.foldl_cons, ih, List.flatten_cons]
      simp only [parserUpdate_eq, ckA_append, ckB_append, List.length_append, UInt8.ofNat_add]
      congr 1 <;> grind
  rw [key, parserUpdate_eq]
  simp [ParserChecksum.new, ParserChecksum.result]

/-- A check value: the checksum of the ACK-ACK body `05 01 02 00 06 01` is `0f 38`. -/
example : ubxChecksum [0x05, 0x01, 0x02, 0x00, 0x06, 0x01] = (0x0f, 0x38) ∧
    ckA [0x05, 0x01, 0x02, 0x00, 0x06, 0x01] = 0x0f ∧
    ckB [0x05, 0x01, 0x02, 0x00, 0x06, 0x01] = 0x38 := by decide

/-! ## C16 -/

/-- Exchange the bytes at positions `k` and `k + 1`. -/
def swapAt : Nat → Bytes → Bytes
  | 0, x :: y :: t => y :: x :: t
  | k + 1, x :: t => x :: swapAt k t
  | _, xs => xs

theorem swapAt_length (k : Nat) (xs : Bytes) : (swapAt k xs).length = xs.length := by
  fun_induction swapAt k xs <;> simp_all

theorem ckA_set {xs : Bytes} {k : Nat} {v : UInt8} (hk : k < xs.length) (hv : xs[k] ≠ v) :
    ckA (xs.set k v) ≠ ckA xs := by
  induction xs generalizing k with
  | nil => simp at hk
  | cons x xs ih =>
    cases k with
    | zero =>
      simp only [List.getElem_cons_zero] at hv
      simp only [List.set_cons_zero, ckA_cons]
      grind
    | succ k =>
      simp only [List.getElem_cons_succ] at hv
      have := ih (by simpa using hk) hv
      simp only [List.set_cons_succ, ckA_cons]
      grind

theorem ckA_swap (k : Nat) (xs : Bytes) : ckA (swapAt k xs) = ckA xs := by
  fun_induction swapAt k xs with
  | case1 => simp only [ckA_cons]; grind
  | case2 k x t ih => simp only [ckA_cons, ih]
  | case3 => rfl

theorem ckB_swap {k : Nat} {xs : Bytes} (hk : k + 1 < xs.length) (hne : xs[k] ≠ xs[k + 1]) :
    ckB (swapAt k xs) ≠ ckB xs := by
  induction xs generalizing k with
  | nil => simp at hk
  | cons x xs ih =>
    cases k with
    | zero =>
      match xs, hk with
      | y :: t, _ =>
        simp only [List.getElem_cons_zero, List.getElem_cons_succ] at hne
        simp only [swapAt, ckB_cons, List.length_cons, UInt8.ofNat_add]
        grind
    | succ k =>
      simp only [List.getElem_cons_succ] at hne
      have := ih (by simpa using hk) hne
      simp only [swapAt, ckB_cons, swapAt_length]
      grind

variable {P : Type} {M : Nat} {D : Dispatch P}

/-- If the pending bytes start (after bytes other than `0xb5`) with a complete candidate frame with
a wrong checksum that fits in the buffer, the first answer is `InvalidChecksum`. -/
theorem bad_frame_first {T : Type} [UnderlyingBuffer T] [LawfulBuffer M T]
    {p : Parser T} (hM : D.maxPayloadLen + 8 ≤ M) (hm : D.maxPayloadLen ≤ 65535)
    (hi : LawfulBuffer.Inv M p.buf) {chunk : Bytes}
    (hc : chunk.length ≤ M / 2) (hr : LawfulBuffer.Room M T (p.bufferLen + chunk.length)) (n : Nat)
    {sep : Bytes} (hsep : (0xb5 : UInt8) ∉ sep) {c i : UInt8} {payload rest : Bytes} {a b : UInt8}
    (hp : payload.length ≤ D.maxPayloadLen) (hcap : payload.length + 2 ≤ maxCapacity p.buf)
    (hbad : (a, b) ≠ (ckA (body c i payload), ckB (body c i payload)))
    (hall : LawfulBuffer.contents M p.buf ++ chunk =
      sep ++ ([0xb5, 0x62] ++ body c i payload ++ [a, b]) ++ rest) :
    ∃ rs q, feed M D p chunk (n + 1) = some (.ok (some (.error (.invalidChecksum
      (ckNumber (a, b)) (ckNumber (ckA (body c i payload), ckB (body c i payload))))) :: rs, q)) := by
  have hlen := LawfulBuffer.len_eq hi
  simp only [bufferLen, hlen] at hr
  obtain ⟨evs, q, s, f1, f2, f3, f4, f5, f6⟩ := feed_eq (D := D) hi hc hr hM (n + 1)
  have hann : announced (UInt8.ofNat (payload.length % 256)) (UInt8.ofNat (payload.length / 256)) =
      payload.length := announced_ofNat (by omega)
  have hsc : scan D.maxPayloadLen (trim (LawfulBuffer.contents M p.buf ++ chunk)) =
      .cand c i (UInt8.ofNat (payload.length % 256)) (UInt8.ofNat (payload.length / 256))
        (payload ++ a :: b :: rest) := by
    rw [scan_trim, hall, List.append_assoc, scan_sep hsep]
    have e : [0xb5, 0x62] ++ body c i payload ++ [a, b] ++ rest =
        header c i (UInt8.ofNat (payload.length % 256)) (UInt8.ofNat (payload.length / 256))
          (payload ++ a :: b :: rest) := by simp [header, body]
    rw [e, scan_header, hann, if_pos hp]
  cases f5 with
  | nil => simp at f4
  | @cons _ s1 _ ev evs hst hrun =>
    have : ev = some (.badChecksum (a, b) (ckA (body c i payload), ckB (body c i payload))) := by
      cases hst with
      | wait h => rw [hsc] at h; cases h
      | incomplete h h2 => rw [hsc] at h; cases h; rw [hann] at h2; simp at h2; omega
      | noRoom h h2 => rw [hsc] at h; cases h; rw [hann] at h2; simp at h2; omega
      | noRoomComplete h h2 h3 => rw [hsc] at h; cases h; rw [hann] at h3; omega
      | packet h h2 h3 h4 =>
        rw [hsc] at h; cases h
        rw [hann, List.drop_left' rfl] at h2
        injection h2 with h2 h5
        injection h5 with h5 h6
        rw [covered_frame (by omega)] at h3 h4
        subst h2 h5
        exact absurd (by rw [h3, h4]) hbad
      | bad h h2 h3 =>
        rw [hsc] at h; cases h
        rw [hann, List.drop_left' rfl] at h2
        injection h2 with h2 h4
        injection h4 with h4 h5
        rw [covered_frame (by omega), h2, h4]
    subst this
    exact ⟨answers D evs, q, f1⟩

/-- How a frame with one byte outside sync and length field replaced looks like. -/
theorem set_frame {c i : UInt8} {payload : Bytes} {k : Nat} {v : UInt8}
    (hk : k < (frame c i payload).length) (hk2 : 2 ≤ k) (h4 : k ≠ 4) (h5 : k ≠ 5)
    (hv : (frame c i payload)[k] ≠ v) :
    ∃ c' i' payload' a b, (frame c i payload).set k v =
        [0xb5, 0x62] ++ body c' i' payload' ++ [a, b] ∧ payload'.length = payload.length ∧
      (a, b) ≠ (ckA (body c' i' payload'), ckB (body c' i' payload')) := by
  have hb : (body c i payload).length = payload.length + 4 := by simp [body]
  have hf : frame c i payload = [0xb5, 0x62] ++ body c i payload ++
      [ckA (body c i payload), ckB (body c i payload)] := by simp [frame]
  have hlen : (frame c i payload).length = payload.length + 8 := by simp [frame, body]
  by_cases h : k < 2 + (body c i payload).length
  · have hget : (frame c i payload)[k] = (body c i payload)[k - 2] := by
      simp only [hf, List.append_assoc]
      rw [List.getElem_append_right (by simpa using hk2),
        List.getElem_append_left (by simp; omega)]
      rfl
    rw [hget] at hv
    have hset : (frame c i payload).set k v = [0xb5, 0x62] ++ (body c i payload).set (k - 2) v ++
        [ckA (body c i payload), ckB (body c i payload)] := by
      rw [hf, List.append_assoc, List.set_append_right _ _ (by simpa using hk2),
        List.set_append_left _ _ (by simp; omega), ← List.append_assoc]
      rfl
    have hne := ckA_set (xs := body c i payload) (k := k - 2) (by omega) hv
    have hbody : ∃ c' i' payload', (body c i payload).set (k - 2) v = body c' i' payload' ∧
        payload'.length = payload.length := by
      have hcases : k = 2 ∨ k = 3 ∨ 6 ≤ k := by omega
      rcases hcases with rfl | rfl | h6
      · exact ⟨v, i, payload, rfl, rfl⟩
      · exact ⟨c, v, payload, rfl, rfl⟩
      · refine ⟨c, i, payload.set (k - 6) v, ?_, by simp⟩
        obtain ⟨m, rfl⟩ : ∃ m, k = m + 6 := ⟨k - 6, by omega⟩
        have e : m + 6 - 2 = m + 4 := by omega
        rw [e]
        simp [body]
    obtain ⟨c', i', payload', e1, e2⟩ := hbody
    refine ⟨c', i', payload', _, _, by rw [hset, e1], e2, ?_⟩
    rw [← e1]
    intro h
    exact hne (by injection h with h _; exact h.symm)
  · have hk' : k = payload.length + 6 ∨ k = payload.length + 7 := by omega
    have hpre : ([0xb5, 0x62] ++ body c i payload).length = payload.length + 6 := by simp [hb]
    have hget : (frame c i payload)[k] =
        [ckA (body c i payload), ckB (body c i payload)][k - (payload.length + 6)]'(by simp; omega) := by
      simp only [hf]
      rw [List.getElem_append_right (by omega)]
      simp only [hpre]
    have hset : (frame c i payload).set k v = [0xb5, 0x62] ++ body c i payload ++
        [ckA (body c i payload), ckB (body c i payload)].set (k - (payload.length + 6)) v := by
      rw [hf, List.set_append_right _ _ (by omega), hpre]
    rw [hget] at hv
    rcases hk' with rfl | rfl
    · have e : payload.length + 6 - (payload.length + 6) = 0 := by omega
      simp only [e, List.getElem_cons_zero] at hv
      refine ⟨c, i, payload, v, _, by rw [hset, e]; rfl, rfl, ?_⟩
      intro h
      exact hv (by injection h with h _; exact h.symm)
    · have e : payload.length + 7 - (payload.length + 6) = 1 := by omega
      simp only [e, List.getElem_cons_succ, List.getElem_cons_zero] at hv
      refine ⟨c, i, payload, _, v, by rw [hset, e]; rfl, rfl, ?_⟩
      intro h
      exact hv (by injection h with _ h; exact h.symm)

/-- How a frame with two neighbours of class, id or payload exchanged looks like. -/
theorem swap_frame {c i : UInt8} {payload : Bytes} {k : Nat}
    (hk : k = 2 ∨ (6 ≤ k ∧ k + 1 < payload.length + 6))
    (hk' : k + 1 < (frame c i payload).length)
    (hv : (frame c i payload)[k] ≠ (frame c i payload)[k + 1]) :
    ∃ c' i' payload' a b, swapAt k (frame c i payload) =
        [0xb5, 0x62] ++ body c' i' payload' ++ [a, b] ∧ payload'.length = payload.length ∧
      (a, b) ≠ (ckA (body c' i' payload'), ckB (body c' i' payload')) := by
  have hb : (body c i payload).length = payload.length + 4 := by simp [body]
  have happ : ∀ (j : Nat) (xs ys : Bytes), j + 1 < xs.length →
      swapAt j (xs ++ ys) = swapAt j xs ++ ys := by
    intro j xs
    induction xs generalizing j with
    | nil => intro ys h; simp at h
    | cons x xs ih =>
      intro ys h
      cases j with
      | zero =>
        match xs, h with
        | y :: t, _ => rfl
      | succ j => simp [swapAt, ih j ys (by simpa using h)]
  have hf : frame c i payload = 0xb5 :: 0x62 :: (body c i payload ++
      [ckA (body c i payload), ckB (body c i payload)]) := rfl
  obtain ⟨m, rfl⟩ : ∃ m, k = m + 2 := ⟨k - 2, by omega⟩
  have hm : m + 1 < (body c i payload).length := by omega
  have hset : swapAt (m + 2) (frame c i payload) = [0xb5, 0x62] ++ swapAt m (body c i payload) ++
      [ckA (body c i payload), ckB (body c i payload)] := by
    rw [hf]
    simp only [swapAt]
    rw [happ m _ _ hm]
    simp
  have hg : ∀ j (hj : j < (body c i payload).length) (hj' : j + 2 < (frame c i payload).length),
      (frame c i payload)[j + 2] = (body c i payload)[j] := by
    intro j hj hj'
    simp only [hf, List.getElem_cons_succ]
    exact List.getElem_append_left hj
  have hv' : (body c i payload)[m] ≠ (body c i payload)[m + 1] := by
    rw [← hg m (by omega) (by omega), ← hg (m + 1) hm (by omega)]
    exact hv
  have hne := ckB_swap hm hv'
  have hbody : ∃ c' i' payload', swapAt m (body c i payload) = body c' i' payload' ∧
      payload'.length = payload.length := by
    rcases hk with hk | hk
    · obtain rfl : m = 0 := by omega
      exact ⟨i, c, payload, rfl, rfl⟩
    · obtain ⟨l, rfl⟩ : ∃ l, m = l + 4 := ⟨m - 4, by omega⟩
      refine ⟨c, i, swapAt l payload, ?_, swapAt_length _ _⟩
      simp [body, swapAt, swapAt_length]
  obtain ⟨c', i', payload', e1, e2⟩ := hbody
  refine ⟨c', i', payload', _, _, by rw [hset, e1], e2, ?_⟩
  rw [← e1]
  intro h
  exact hne (by injection h with _ h; exact h.symm)

/-- **C16** A frame in which one byte other than sync and length bytes was replaced by a different
one is answered by `InvalidChecksum`, for any parser state, position in the stream and what
follows. -/
theorem c16_single_byte {T : Type} [UnderlyingBuffer T] [LawfulBuffer M T]
    {p : Parser T} (hM : D.maxPayloadLen + 8 ≤ M) (hm : D.maxPayloadLen ≤ 65535)
    (hi : LawfulBuffer.Inv M p.buf) (chunk : Bytes)
    (hc : chunk.length ≤ M / 2) (hr : LawfulBuffer.Room M T (p.bufferLen + chunk.length)) (n : Nat)
    (sep : Bytes) (hsep : (0xb5 : UInt8) ∉ sep) (c i : UInt8) (payload rest : Bytes)
    (hp : payload.length ≤ D.maxPayloadLen) (hcap : payload.length + 2 ≤ maxCapacity p.buf)
    (k : Nat) (v : UInt8) (hk : k < (frame c i payload).length) (hk2 : 2 ≤ k) (h4 : k ≠ 4)
    (h5 : k ≠ 5) (hv : (frame c i payload)[k] ≠ v)
    (hall : LawfulBuffer.contents M p.buf ++ chunk = sep ++ (frame c i payload).set k v ++ rest) :
    ∃ e g rs q, feed M D p chunk (n + 1) =
      some (.ok (some (.error (.invalidChecksum e g)) :: rs, q)) := by
  obtain ⟨c', i', p', a, b, h1, h2, h3⟩ := set_frame hk hk2 h4 h5 hv
  rw [h1] at hall
  obtain ⟨rs, q, h⟩ := bad_frame_first (D := D) hM hm hi hc hr n hsep (by omega) (by omega) h3 hall
  exact ⟨_, _, rs, q, h⟩

/-- **C16** The same for two different adjacent bytes exchanged (class and id, or two payload
bytes). -/
theorem c16_adjacent_swap {T : Type} [UnderlyingBuffer T] [LawfulBuffer M T]
    {p : Parser T} (hM : D.maxPayloadLen + 8 ≤ M) (hm : D.maxPayloadLen ≤ 65535)
    (hi : LawfulBuffer.Inv M p.buf) (chunk : Bytes)
    (hc : chunk.length ≤ M / 2) (hr : LawfulBuffer.Room M T (p.bufferLen + chunk.length)) (n : Nat)
    (sep : Bytes) (hsep : (0xb5 : UInt8) ∉ sep) (c i : UInt8) (payload rest : Bytes)
    (hp : payload.length ≤ D.maxPayloadLen) (hcap : payload.length + 2 ≤ maxCapacity p.buf)
    (k : Nat) (hk : k = 2 ∨ (6 ≤ k ∧ k + 1 < payload.length + 6))
    (hk' : k + 1 < (frame c i payload).length)
    (hv : (frame c i payload)[k] ≠ (frame c i payload)[k + 1])
    (hall : LawfulBuffer.contents M p.buf ++ chunk = sep ++ swapAt k (frame c i payload) ++ rest) :
    ∃ e g rs q, feed M D p chunk (n + 1) =
      some (.ok (some (.error (.invalidChecksum e g)) :: rs, q)) := by
  obtain ⟨c', i', p', a, b, h1, h2, h3⟩ := swap_frame hk hk' hv
  rw [h1] at hall
  obtain ⟨rs, q, h⟩ := bad_frame_first (D := D) hM hm hi hc hr n hsep (by omega) (by omega) h3 hall
  exact ⟨_, _, rs, q, h⟩

/-- The hypotheses on a concrete frame: payload byte 7 replaced, and bytes 6 and 7 exchanged. -/
example : (frame 5 1 [6, 0])[7] ≠ 8 ∧ (frame 5 1 [6, 0])[6] ≠ (frame 5 1 [6, 0])[7] ∧
    (6 ≤ 6 ∧ 6 + 1 < ([6, 0] : Bytes).length + 6) ∧
    LawfulBuffer.contents 65535 (vecParser 65535).buf ++ ((frame 5 1 [6, 0]).set 7 8 ++ [1]) =
      [] ++ (frame 5 1 [6, 0]).set 7 8 ++ [1] := by decide

end Ublox.Props
