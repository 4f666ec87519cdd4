import Verif.Lemmas.Junk

/-! # Frames among arbitrary other bytes and frames: the decoder loses none of them -/

namespace Ublox

open Spec

variable {maxLen cap B n : Nat}

/-- Dropping part of the bytes before the first frame. -/
theorem among_drop {junk rest p : Bytes} {c i : UInt8} {fs : List (UInt8 × UInt8 × Bytes)} {k : Nat}
    (hp : p.length ≤ maxLen) (hn : FramesWithin maxLen junk.length (junk ++ frame c i p ++ rest))
    (hj : Among maxLen n rest fs) (hk : k ≤ junk.length) :
    Among maxLen n ((junk ++ frame c i p ++ rest).drop k) ((c, i, p) :: fs) := by
  have e : (junk ++ frame c i p ++ rest).drop k = junk.drop k ++ frame c i p ++ rest := by
    rw [List.append_assoc, List.drop_append_of_le_length hk, List.append_assoc]
  rw [e]
  refine .cons hp ?_ hj
  intro j hj c' i' p' rest' hp'
  rw [← e, List.drop_drop]
  rw [List.length_drop] at hj ⊢
  intro h
  have := hn (k + j) (by omega) c' i' p' rest' hp' h
  omega

/-- One step of the decoder on the known part `s` of such a stream `s ++ t`. -/
theorem step_among {s t r junk rest p : Bytes} {c i : UInt8} {ev : Option Ev}
    {fs : List (UInt8 × UInt8 × Bytes)} (hm : maxLen ≤ 65535)
    (hp : p.length ≤ maxLen) (hn : FramesWithin maxLen junk.length (junk ++ frame c i p ++ rest))
    (hj : Among maxLen n rest fs) (hfit : p.length + 7 ≤ cap)
    (hst : s ++ t = junk ++ frame c i p ++ rest) (h : Step maxLen cap s ev r) :
    Among maxLen n (r ++ t) ((c, i, p) :: fs) ∨
    (packets ev.toList = [(c, i, p)] ∧ r ++ t = rest) := by
  have hX : (s ++ t).drop junk.length = frame c i p ++ rest := by
    rw [hst, List.append_assoc, List.drop_left]
  have hcX : IsCand maxLen ((s ++ t).drop junk.length) := by rw [hX]; exact isCand_frame hp hm
  -- the candidate of `scan` in the whole stream
  have hcand : ∀ c' i' lo hi tail, scan maxLen s = .cand c' i' lo hi tail →
      announced lo hi ≤ maxLen ∧
      ((∃ k, k + 2 ≤ junk.length ∧ (s ++ t).drop k = header c' i' lo hi (tail ++ t)) ∨
      header c' i' lo hi (tail ++ t) = frame c i p ++ rest) := by
    intro c' i' lo hi tail hs
    obtain ⟨k, hk, h1, h2, h3⟩ := (scan_pos maxLen s t).2 _ _ _ _ _ hs
    have h4 : k ≤ junk.length := by
      rcases Nat.lt_or_ge junk.length k with h | h
      · exact absurd hcX (h3 _ h)
      · exact h
    have h5 : (s ++ t).drop k = header c' i' lo hi (tail ++ t) := by
      rw [List.drop_append_of_le_length hk, h1]; rfl
    refine ⟨h2, ?_⟩
    rcases Nat.lt_or_ge (k + 1) junk.length with h | h
    · exact Or.inl ⟨k, h, h5⟩
    · rcases Nat.lt_or_ge k junk.length with h' | h'
      · exfalso
        have e : k + 1 = junk.length := by omega
        have h6 : ((s ++ t).drop k).drop 1 = frame c i p ++ rest := by
          rw [List.drop_drop, e, hX]
        rw [h5] at h6
        simp only [header, List.drop_succ_cons, List.drop_zero, frame, List.cons_append,
          List.cons.injEq] at h6
        exact absurd h6.1 (by decide)
      · have e : k = junk.length := by omega
        right
        rw [← h5, e, hX]
  have hinj : ∀ c' i' lo hi tail, header c' i' lo hi (tail ++ t) = frame c i p ++ rest →
      c' = c ∧ i' = i ∧ announced lo hi = p.length ∧
      tail ++ t = p ++ ckA (body c i p) :: ckB (body c i p) :: rest ∧
      covered c' i' lo hi (tail ++ t) = body c i p := by
    intro c' i' lo hi tail h
    rw [frame_eq_header] at h
    simp only [header, List.cons.injEq, true_and] at h
    obtain ⟨rfl, rfl, rfl, rfl, h⟩ := h
    refine ⟨rfl, rfl, announced_ofNat (by omega), h, ?_⟩
    rw [h, covered_frame (by omega)]
  have skip : ∀ c' i' lo hi tail k, k + 2 ≤ junk.length →
      (s ++ t).drop k = header c' i' lo hi (tail ++ t) →
      Among maxLen n (c' :: i' :: lo :: hi :: tail ++ t) ((c, i, p) :: fs) := by
    intro c' i' lo hi tail k hk h
    have h1 : (s ++ t).drop (k + 2) = c' :: i' :: lo :: hi :: tail ++ t := by
      rw [← List.drop_drop, h]; rfl
    rw [← h1, hst]
    exact among_drop hp hn hj hk
  have stay : ∀ k, k ≤ junk.length → Among maxLen n ((s ++ t).drop k) ((c, i, p) :: fs) := by
    intro k hk
    rw [hst]
    exact among_drop hp hn hj hk
  cases h with
  | wait hs =>
    obtain ⟨k, hk, h1, h3⟩ := (scan_pos maxLen s t).1 _ hs
    have h4 : k ≤ junk.length := by
      rcases Nat.lt_or_ge junk.length k with h | h
      · exact absurd hcX (h3 _ h)
      · exact h
    refine Or.inl ?_
    rw [h1, ← List.drop_append_of_le_length hk]
    exact stay k h4
  | @incomplete c' i' lo hi tail hs h1 h2 =>
    refine Or.inl ?_
    rcases (hcand _ _ _ _ _ hs).2 with ⟨k, hk, h3⟩ | h3
    · have := stay k (by omega)
      rw [h3] at this
      exact this
    · have := stay junk.length (Nat.le_refl _)
      rw [hX, ← h3] at this
      exact this
  | @noRoom c' i' lo hi tail hs h1 h2 =>
    refine Or.inl ?_
    rcases (hcand _ _ _ _ _ hs).2 with ⟨k, hk, h3⟩ | h3
    · exact skip _ _ _ _ _ k hk h3
    · exfalso
      have h4 := (hinj _ _ _ _ _ h3).2.2.1
      simp only [header, List.length_cons] at h2
      omega
  | @noRoomComplete c' i' lo hi tail hs h1 h2 =>
    refine Or.inl ?_
    rcases (hcand _ _ _ _ _ hs).2 with ⟨k, hk, h3⟩ | h3
    · exact skip _ _ _ _ _ k hk h3
    · exfalso
      have h4 := (hinj _ _ _ _ _ h3).2.2.1
      omega
  | @packet c' i' lo hi tail a b after hs h1 h2 h3 =>
    obtain ⟨hl, hc⟩ := hcand _ _ _ _ _ hs
    have hcov := covered_append (c := c') (i := i') (lo := lo) (hi := hi) t h1
    have h1t : (tail ++ t).drop (announced lo hi) = a :: b :: (r ++ t) := by
      have := after_length h1
      rw [List.drop_append_of_le_length (by omega), h1]; rfl
    rcases hc with ⟨k, hk, h4⟩ | h4
    · have h5 := header_eq_frame (c := c') (i := i') h1t (by rw [h2]; simp [hcov]) (by rw [h3]; simp [hcov])
      rw [← h4] at h5
      have h6 := hn k (by omega) _ _ _ _ (by rw [List.length_take]; omega) (hst ▸ h5)
      have h7 : (s ++ t).drop (k + (frame c' i' ((tail ++ t).take (announced lo hi))).length) =
          r ++ t := by
        rw [← List.drop_drop, h5, List.drop_left]
      left
      rw [← h7]
      exact stay _ h6
    · obtain ⟨rfl, rfl, h5, h6, h7⟩ := hinj _ _ _ _ _ h4
      right
      rw [h5] at h1t ⊢
      rw [h6, List.drop_left] at h1t
      have h8 : tail.take p.length = p := by
        have := after_length h1
        have h9 := congrArg (List.take p.length) h6
        rw [List.take_append_of_le_length (by omega), List.take_left] at h9
        exact h9
      rw [h8]
      simp only [List.cons.injEq] at h1t
      exact ⟨rfl, h1t.2.2.symm⟩
  | @bad c' i' lo hi tail a b after hs h1 h2 =>
    refine Or.inl ?_
    obtain ⟨hl, hc⟩ := hcand _ _ _ _ _ hs
    rcases hc with ⟨k, hk, h4⟩ | h4
    · exact skip _ _ _ _ _ k hk h4
    · exfalso
      have h1t : (tail ++ t).drop (announced lo hi) = a :: b :: (after ++ t) := by
        have := after_length h1
        rw [List.drop_append_of_le_length (by omega), h1]; rfl
      obtain ⟨rfl, rfl, h5, h6, h7⟩ := hinj _ _ _ _ _ h4
      have hcov : covered c' i' lo hi tail = body c' i' p := by
        rw [← h7]
        have := after_length h1
        simp only [covered]
        rw [List.take_append_of_le_length (by omega)]
      rw [h5, h6, List.drop_left] at h1t
      simp only [List.cons.injEq] at h1t
      exact h2 ⟨by rw [hcov, ← h1t.1], by rw [hcov, ← h1t.2.1]⟩

/-- What was returned so far: some of the frames, among others, with the rest still ahead in `s`; or
all of them. -/
def AheadAmong (maxLen n : Nat) (fs out : List (UInt8 × UInt8 × Bytes)) (s : Bytes) : Prop :=
  (∃ fs1 fs2, fs2 ≠ [] ∧ fs = fs1 ++ fs2 ∧ fs1.Sublist out ∧ Among maxLen n s fs2) ∨ fs.Sublist out

theorem step_aheadAmong {s t r : Bytes} {ev : Option Ev} {fs out : List (UInt8 × UInt8 × Bytes)}
    (hm : maxLen ≤ 65535) (hfit : ∀ f ∈ fs, f.2.2.length + 7 ≤ cap)
    (hA : AheadAmong maxLen n fs out (s ++ t)) (h : Step maxLen cap s ev r) :
    AheadAmong maxLen n fs (out ++ packets ev.toList) (r ++ t) := by
  rcases hA with ⟨fs1, fs2, h1, h2, h3, h4⟩ | h1
  · generalize hst : s ++ t = st at h4
    cases h4 with
    | nil => exact absurd rfl h1
    | @cons junk rest c i p fs2 hp hn hj =>
      rcases step_among hm hp hn hj (hfit (c, i, p) (by rw [h2]; simp)) hst h with h5 | ⟨h4, h5⟩
      · exact Or.inl ⟨fs1, _, by simp, h2, h3.trans (List.sublist_append_left _ _), h5⟩
      · rw [h4, h5]
        cases hj with
        | nil hl => exact Or.inr (by rw [h2]; exact h3.append (.refl _))
        | cons a b c => exact Or.inl ⟨fs1 ++ [_], _, List.cons_ne_nil _ _, by rw [h2]; simp,
            h3.append (.refl _), .cons a b c⟩
  · exact Or.inr (h1.trans (List.sublist_append_left _ _))

theorem run_aheadAmong {s t r : Bytes} {evs : List (Option Ev)} {fs out : List (UInt8 × UInt8 × Bytes)}
    (hm : maxLen ≤ 65535) (hfit : ∀ f ∈ fs, f.2.2.length + 7 ≤ cap)
    (h : Run maxLen cap s evs r) (hA : AheadAmong maxLen n fs out (s ++ t)) :
    AheadAmong maxLen n fs (out ++ packets (reports evs)) (r ++ t) := by
  induction h generalizing out with
  | nil s => simpa [reports, packets] using hA
  | @cons s s' s'' ev evs h1 _ ih =>
    have := ih (step_aheadAmong hm hfit hA h1)
    have e : packets (reports (ev :: evs)) = packets ev.toList ++ packets (reports evs) := by
      rw [← packets_append]
      cases ev <;> rfl
    rw [e, ← List.append_assoc]
    exact this

theorem aheadAmong_trim {s t : Bytes} {fs out : List (UInt8 × UInt8 × Bytes)}
    (hA : AheadAmong maxLen n fs out (s ++ t)) : AheadAmong maxLen n fs out (trim s ++ t) := by
  rcases hA with ⟨fs1, fs2, h1, h2, h0, h3⟩ | h
  · refine Or.inl ⟨fs1, fs2, h1, h2, h0, ?_⟩
    generalize hst : s ++ t = st at h3
    cases h3 with
    | nil => exact absurd rfl h1
    | @cons junk rest c i p fs2 hp hn hj =>
      unfold trim
      split
      · rename_i hmem
        -- the dropped bytes are all different from the sync byte
        obtain ⟨pre, h4, h5⟩ : ∃ pre, s = pre ++ s.dropWhile (· ≠ 0xb5) ∧ (0xb5 : UInt8) ∉ pre := by
          refine ⟨s.takeWhile (· ≠ 0xb5), (List.takeWhile_append_dropWhile).symm, fun hc => ?_⟩
          have := List.mem_takeWhile_imp hc
          simp at this
        have hk : pre.length ≤ junk.length := by
          rcases Nat.lt_or_ge junk.length pre.length with hlt | hge
          · exfalso
            have hX : (s ++ t).drop junk.length = frame c i p ++ rest := by
              rw [hst, List.append_assoc, List.drop_left]
            rw [h4, List.append_assoc, List.drop_append_of_le_length (by omega)] at hX
            apply h5
            have h6 : (pre.drop junk.length) ≠ [] := by
              intro h; have := congrArg List.length h; simp at this; omega
            obtain ⟨a, l, h7⟩ := List.exists_cons_of_ne_nil h6
            rw [h7] at hX
            simp only [frame, List.cons_append, List.cons.injEq] at hX
            have : a ∈ pre := List.mem_of_mem_drop (by rw [h7]; simp)
            rw [hX.1] at this
            exact this
          · exact hge
        have h6 : (s ++ t).drop pre.length = s.dropWhile (· ≠ 0xb5) ++ t := by
          conv => lhs; rw [h4]
          rw [List.append_assoc, List.drop_left]
        rw [← h6, hst]
        exact among_drop hp hn hj hk
      · rw [hst]
        exact .cons hp hn hj
  · exact Or.inr h

theorem hist_aheadAmong {b b' t : Bytes} {h : List (Bytes × Nat)} {evss : List (List (Option Ev))}
    {fs out : List (UInt8 × UInt8 × Bytes)} (hm : maxLen ≤ 65535)
    (hfit : ∀ f ∈ fs, f.2.2.length + 7 ≤ cap) (hh : Hist B maxLen cap b h evss b')
    (hk : B ≤ cap ∨ (5 ≤ cap ∧ ∀ evs ∈ evss, none ∈ evs))
    (hA : AheadAmong maxLen n fs out (b ++ fed h ++ t)) :
    AheadAmong maxLen n fs (out ++ packets (reports evss.flatten)) (b' ++ t) := by
  induction hh generalizing out with
  | nil b => simpa [fed, reports, packets] using hA
  | @cons b c k evs s rest evss b' hB hrun hn _ ih =>
    have hfed : b ++ fed ((c, k) :: rest) ++ t = (b ++ c) ++ (fed rest ++ t) := by simp [fed]
    rw [hfed] at hA
    have hs : s.take cap = s := by
      apply List.take_of_length_le
      rcases hk with hk | ⟨hk1, hk2⟩
      · have h1 := (run_suffix hrun).length_le
        have h2 := (trim_suffix (b ++ c)).length_le
        omega
      · obtain ⟨k, s0, m, _, _, _, _, e5⟩ := run_exhausted hrun (hk2 _ (by simp))
        have := (step_none_length e5).1
        omega
    rw [hs] at ih
    have h1 := run_aheadAmong hm hfit hrun (aheadAmong_trim hA)
    rw [← List.append_assoc] at h1
    have h2 := ih (hk.imp_right fun h => ⟨h.1, fun e he => h.2 e (by simp [he])⟩) h1
    rw [List.append_assoc, ← packets_append] at h2
    simpa [reports] using h2

/-- Streams with frames ahead are longer than the announced number of bytes. -/
theorem among_length {s : Bytes} {fs : List (UInt8 × UInt8 × Bytes)} (h : Among maxLen n s fs) :
    n ≤ s.length := by
  induction h with
  | nil h => exact h
  | cons _ _ _ ih => simp only [List.length_append]; omega

theorem among_payload {s : Bytes} {fs : List (UInt8 × UInt8 × Bytes)} (h : Among maxLen n s fs) :
    ∀ f ∈ fs, f.2.2.length ≤ maxLen := by
  induction h with
  | nil => simp
  | cons hp _ _ ih =>
    intro f hf
    rcases List.mem_cons.mp hf with rfl | hf
    · exact hp
    · exact ih f hf

theorem aheadAmong_of_among {s : Bytes} {fs : List (UInt8 × UInt8 × Bytes)} (h : Among maxLen n s fs) :
    AheadAmong maxLen n fs [] s := by
  cases fs with
  | nil => exact .inr (.refl _)
  | cons f fs => exact .inl ⟨[], _, List.cons_ne_nil _ _, rfl, .refl _, h⟩

end Ublox
