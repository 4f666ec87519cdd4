import Verif.Lemmas.Parser

/-!
# Facts about the reference decoder: composition over chunks, progress, bounds
-/

namespace Ublox.Spec

variable {maxLen : Nat}

/-- More input after an undecided prefix. -/
theorem scan_append (maxLen : Nat) (a b : Bytes) :
    (∀ r, scan maxLen a = .wait r → scan maxLen (a ++ b) = scan maxLen (r ++ b)) ∧
    (∀ c i lo hi tail, scan maxLen a = .cand c i lo hi tail →
      scan maxLen (a ++ b) = .cand c i lo hi (tail ++ b)) := by
  fun_induction scan maxLen a with
  | case1 => simp
  | case2 => simp
  | case3 c i lo hi tail hle =>
    refine ⟨by simp, ?_⟩
    intro c' i' lo' hi' tail' h
    injection h with h1 h2 h3 h4 h5
    subst h1 h2 h3 h4 h5
    show scan maxLen (header c i lo hi (tail ++ b)) = _
    rw [scan_header, if_pos hle]
  | case4 c i lo hi tail hle ih =>
    have : scan maxLen (0xb5 :: 0x62 :: c :: i :: lo :: hi :: tail ++ b) =
        scan maxLen (c :: i :: lo :: hi :: tail ++ b) := by
      show scan maxLen (header c i lo hi (tail ++ b)) = _
      rw [scan_header, if_neg hle]; rfl
    rw [this]
    exact ih
  | case5 u h => simp
  | case6 c u hc ih =>
    have : scan maxLen (0xb5 :: c :: u ++ b) = scan maxLen (c :: u ++ b) :=
      scan_second _ _ _ hc
    rw [this]
    exact ih
  | case7 x t hx ih =>
    have : scan maxLen (x :: t ++ b) = scan maxLen (t ++ b) := by
      show scan maxLen (x :: (t ++ b)) = _
      conv => lhs; rw [scan.eq_def]
      simp [hx]
    rw [this]
    exact ih

/-- A candidate announces at most the maximum. -/
theorem scan_cand_le {s tail : Bytes} {c i lo hi : UInt8}
    (h : scan maxLen s = .cand c i lo hi tail) : announced lo hi ≤ maxLen := by
  fun_induction scan maxLen s <;> grind

/-- What waits for more input has at most five bytes. -/
theorem scan_wait_length {s r : Bytes} (h : scan maxLen s = .wait r) : r.length ≤ 5 := by
  fun_induction scan maxLen s with
  | case5 u hu =>
    injection h with h
    subst h
    match u, hu with
    | [], _ => simp
    | [_], _ => simp
    | [_, _], _ => simp
    | [_, _, _], _ => simp
    | c :: i :: lo :: hi :: tail, hu => exact absurd rfl (hu c i lo hi tail)
  | _ => grind

/-- Scanning again what waits for more input changes nothing. -/
theorem scan_wait_idem {s r : Bytes} (h : scan maxLen s = .wait r) : scan maxLen r = .wait r := by
  have := (scan_append maxLen s []).1 r h
  rw [List.append_nil, List.append_nil, h] at this
  exact this.symm

/-- What is left by `scan` is a suffix that starts with a sync byte. -/
theorem scan_suffix (maxLen : Nat) (s : Bytes) :
    (∀ r, scan maxLen s = .wait r → r <:+ s ∧ (r = [] ∨ ∃ t, r = 0xb5 :: t)) ∧
    (∀ c i lo hi tail, scan maxLen s = .cand c i lo hi tail → header c i lo hi tail <:+ s) := by
  fun_induction scan maxLen s with
  | case1 => simp
  | case2 => simp
  | case3 c i lo hi tail hle =>
    refine ⟨by simp, ?_⟩
    intro c' i' lo' hi' tail' h
    injection h with h1 h2 h3 h4 h5
    subst h1 h2 h3 h4 h5
    exact List.suffix_refl _
  | case4 c i lo hi tail hle ih =>
    exact ⟨fun r h => ⟨(ih.1 r h).1.trans ⟨[_, _], rfl⟩, (ih.1 r h).2⟩,
      fun _ _ _ _ _ h => (ih.2 _ _ _ _ _ h).trans ⟨[_, _], rfl⟩⟩
  | case5 u h => simp
  | case6 c u hc ih =>
    exact ⟨fun r h => ⟨(ih.1 r h).1.trans ⟨[_], rfl⟩, (ih.1 r h).2⟩,
      fun _ _ _ _ _ h => (ih.2 _ _ _ _ _ h).trans ⟨[_], rfl⟩⟩
  | case7 x t hx ih =>
    exact ⟨fun r h => ⟨(ih.1 r h).1.trans ⟨[_], rfl⟩, (ih.1 r h).2⟩,
      fun _ _ _ _ _ h => (ih.2 _ _ _ _ _ h).trans ⟨[_], rfl⟩⟩

/-! ## Unfolding `decode` -/

theorem decode_wait {s r : Bytes} (h : scan maxLen s = .wait r) : decode maxLen s = ([], r) := by
  rw [decode.eq_def]
  split
  · rename_i h'; rw [h] at h'; injection h' with h'; rw [h']
  · rename_i h'; rw [h] at h'; cases h'

theorem decode_packet {s tail : Bytes} {c i lo hi a b : UInt8} {after : Bytes}
    (h : scan maxLen s = .cand c i lo hi tail)
    (h2 : tail.drop (announced lo hi) = a :: b :: after)
    (ha : a = ckA (covered c i lo hi tail)) (hb : b = ckB (covered c i lo hi tail)) :
    decode maxLen s = (.packet c i (tail.take (announced lo hi)) :: (decode maxLen after).1,
      (decode maxLen after).2) := by
  rw [decode.eq_def]
  split
  · rename_i h'; rw [h] at h'; cases h'
  · rename_i h'
    rw [h] at h'
    injection h' with h3 h4 h5 h6 h7
    subst h3 h4 h5 h6 h7
    split
    · rename_i h8
      rw [h2] at h8
      injection h8 with h9 h10
      injection h10 with h10 h11
      subst h9 h10 h11
      rw [if_pos ⟨ha, hb⟩]
    · rename_i h8
      exact absurd h2 (h8 _ _ _)

theorem decode_bad {s tail : Bytes} {c i lo hi a b : UInt8} {after : Bytes}
    (h : scan maxLen s = .cand c i lo hi tail)
    (h2 : tail.drop (announced lo hi) = a :: b :: after)
    (hab : ¬ (a = ckA (covered c i lo hi tail) ∧ b = ckB (covered c i lo hi tail))) :
    decode maxLen s =
      (.badChecksum (a, b) (ckA (covered c i lo hi tail), ckB (covered c i lo hi tail)) ::
        (decode maxLen (c :: i :: lo :: hi :: tail)).1,
      (decode maxLen (c :: i :: lo :: hi :: tail)).2) := by
  rw [decode.eq_def]
  split
  · rename_i h'; rw [h] at h'; cases h'
  · rename_i h'
    rw [h] at h'
    injection h' with h3 h4 h5 h6 h7
    subst h3 h4 h5 h6 h7
    split
    · rename_i h8
      rw [h2] at h8
      injection h8 with h9 h10
      injection h10 with h10 h11
      subst h9 h10 h11
      rw [if_neg hab]
    · rename_i h8
      exact absurd h2 (h8 _ _ _)

theorem decode_incomplete {s tail : Bytes} {c i lo hi : UInt8}
    (h : scan maxLen s = .cand c i lo hi tail) (h2 : tail.length < announced lo hi + 2) :
    decode maxLen s = ([], header c i lo hi tail) := by
  rw [decode.eq_def]
  split
  · rename_i h'; rw [h] at h'; cases h'
  · rename_i h'
    rw [h] at h'
    injection h' with h3 h4 h5 h6 h7
    subst h3 h4 h5 h6 h7
    split
    · rename_i h8
      have := congrArg List.length h8
      simp at this
      omega
    · rfl

/-- Two bytes left after the payload, or not enough. -/
theorem drop_cases (tail : Bytes) (n : Nat) :
    tail.length < n + 2 ∨ ∃ a b after, tail.drop n = a :: b :: after := by
  match hm : tail.drop n with
  | [] => have := congrArg List.length hm; simp at this; omega
  | [_] => have := congrArg List.length hm; simp at this; omega
  | a :: b :: after => exact .inr ⟨a, b, after, rfl⟩

/-- The cases of one decoding step. -/
theorem decode_cases (maxLen : Nat) (s : Bytes) :
    (∃ r, scan maxLen s = .wait r) ∨
    (∃ c i lo hi tail, scan maxLen s = .cand c i lo hi tail ∧
      (tail.length < announced lo hi + 2 ∨
       (∃ a b after, tail.drop (announced lo hi) = a :: b :: after ∧
         ((a = ckA (covered c i lo hi tail) ∧ b = ckB (covered c i lo hi tail)) ∨
         ¬ (a = ckA (covered c i lo hi tail) ∧ b = ckB (covered c i lo hi tail)))))) := by
  match h : scan maxLen s with
  | .wait r => exact .inl ⟨r, rfl⟩
  | .cand c i lo hi tail =>
    refine .inr ⟨c, i, lo, hi, tail, rfl, ?_⟩
    rcases drop_cases tail (announced lo hi) with h1 | ⟨a, b, after, h1⟩
    · exact .inl h1
    · exact .inr ⟨a, b, after, h1, Classical.em _⟩

/-- Decoding depends only on what `scan` finds. -/
theorem decode_congr {s s' : Bytes} (h : scan maxLen s = scan maxLen s') :
    decode maxLen s = decode maxLen s' := by
  rcases decode_cases maxLen s with
    ⟨r, h0⟩ | ⟨c, i, lo, hi, tail, h0, h1 | ⟨x, y, after, h1, ⟨h2, h3⟩ | h2⟩⟩
  · rw [decode_wait h0, decode_wait (h.symm.trans h0)]
  · rw [decode_incomplete h0 h1, decode_incomplete (h.symm.trans h0) h1]
  · rw [decode_packet h0 h1 h2 h3, decode_packet (h.symm.trans h0) h1 h2 h3]
  · rw [decode_bad h0 h1 h2, decode_bad (h.symm.trans h0) h1 h2]

/-- The bytes of a candidate with a complete body are shorter than the input. -/
theorem cand_length {s tail : Bytes} {c i lo hi : UInt8}
    (h : scan maxLen s = .cand c i lo hi tail) : 6 + tail.length ≤ s.length := by
  have := (scan_length_le maxLen s).2 _ _ _ _ _ h
  simp [header] at this
  omega

theorem covered_append {c i lo hi a b : UInt8} {tail after : Bytes} (t : Bytes)
    (h2 : tail.drop (announced lo hi) = a :: b :: after) :
    covered c i lo hi (tail ++ t) = covered c i lo hi tail ∧
    (tail ++ t).drop (announced lo hi) = a :: b :: (after ++ t) ∧
    (tail ++ t).take (announced lo hi) = tail.take (announced lo hi) := by
  have hl : announced lo hi ≤ tail.length := by
    have := congrArg List.length h2
    simp at this
    omega
  refine ⟨?_, ?_, ?_⟩
  · simp only [covered]
    rw [List.take_append_of_le_length hl]
  · rw [List.drop_append_of_le_length hl, h2]; rfl
  · rw [List.take_append_of_le_length hl]

theorem after_length {tail after : Bytes} {n : Nat} {a b : UInt8}
    (h2 : tail.drop n = a :: b :: after) : tail.length = n + after.length + 2 := by
  have := congrArg List.length h2
  simp at this
  omega

/-- Decoding in two instalments. -/
theorem decode_append (maxLen : Nat) (a t : Bytes) :
    decode maxLen (a ++ t) =
      ((decode maxLen a).1 ++ (decode maxLen ((decode maxLen a).2 ++ t)).1,
        (decode maxLen ((decode maxLen a).2 ++ t)).2) := by
  generalize hn : a.length = n
  induction n using Nat.strongRecOn generalizing a with
  | ind n ih =>
    subst hn
    rcases decode_cases maxLen a with ⟨r, h⟩ | ⟨c, i, lo, hi, tail, h, h1 | ⟨x, y, after, h1, h2⟩⟩
    · rw [decode_wait h]
      simpa using decode_congr ((scan_append maxLen a t).1 r h)
    · rw [decode_incomplete h h1]
      have e1 := (scan_append maxLen a t).2 _ _ _ _ _ h
      have e2 : scan maxLen (header c i lo hi tail ++ t) = .cand c i lo hi (tail ++ t) := by
        show scan maxLen (header c i lo hi (tail ++ t)) = _
        rw [scan_header, if_pos]
        have := (scan_append maxLen a []).2 _ _ _ _ _ h
        exact scan_cand_le h
      simpa using decode_congr (e1.trans e2.symm)
    · have hlen := cand_length h
      have halen := after_length h1
      have e1 := (scan_append maxLen a t).2 _ _ _ _ _ h
      obtain ⟨f1, f2, f3⟩ := covered_append (c := c) (i := i) t h1
      rcases h2 with ⟨ha, hb⟩ | hne
      · rw [decode_packet h h1 ha hb,
          decode_packet e1 f2 (ha.trans (by rw [f1])) (hb.trans (by rw [f1])),
          ih _ (by omega) after rfl]
        simp [f3]
      · rw [decode_bad h h1 hne, decode_bad e1 f2 (by rw [f1]; exact hne), f1]
        have := ih _ (by simp; omega) (c :: i :: lo :: hi :: tail) rfl
        simp only [List.cons_append] at this
        rw [this]
        simp

end Ublox.Spec
