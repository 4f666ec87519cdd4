import Verif.Spec.Junk
import Verif.Lemmas.Api
import Verif.Lemmas.Clean
import Mathlib.Data.List.TakeWhile

/-! # Frames among arbitrary other bytes: the decoder loses none of them -/

namespace Ublox

open Spec

variable {maxLen cap B n : Nat}

/-- A complete header with an acceptable length at the beginning of `u`. -/
def IsCand (maxLen : Nat) (u : Bytes) : Prop :=
  ∃ c i lo hi tl, u = header c i lo hi tl ∧ announced lo hi ≤ maxLen

theorem not_isCand_of_ne {maxLen : Nat} {b : UInt8} {u : Bytes} (h : b ≠ 0xb5) :
    ¬ IsCand maxLen (b :: u) := by
  rintro ⟨c, i, lo, hi, tl, h1, -⟩
  simp only [header, List.cons.injEq] at h1
  exact h h1.1

/-- Where `scan` stops, and that it passes no acceptable header. -/
theorem scan_pos (maxLen : Nat) (s t : Bytes) :
    (∀ r, scan maxLen s = .wait r → ∃ k ≤ s.length, r = s.drop k ∧
      ∀ j < k, ¬ IsCand maxLen ((s ++ t).drop j)) ∧
    (∀ c i lo hi tail, scan maxLen s = .cand c i lo hi tail → ∃ k ≤ s.length,
      s.drop k = header c i lo hi tail ∧ announced lo hi ≤ maxLen ∧
      ∀ j < k, ¬ IsCand maxLen ((s ++ t).drop j)) := by
  have shift : ∀ (b : UInt8) (u : Bytes) (k : Nat), ¬ IsCand maxLen (b :: u ++ t) →
      (∀ j < k, ¬ IsCand maxLen ((u ++ t).drop j)) →
      ∀ j < k + 1, ¬ IsCand maxLen ((b :: u ++ t).drop j) := by
    intro b u k h1 h2 j hj
    cases j with
    | zero => exact h1
    | succ j => exact h2 j (by omega)
  fun_induction scan maxLen s with
  | case1 => exact ⟨fun r h => ⟨0, by simp, by cases h; rfl, by simp⟩, fun _ _ _ _ _ h => by cases h⟩
  | case2 => exact ⟨fun r h => ⟨0, by simp, by cases h; rfl, by simp⟩, fun _ _ _ _ _ h => by cases h⟩
  | case3 c i lo hi tail h =>
    refine ⟨fun r h => (by cases h), fun _ _ _ _ _ h' => ⟨0, Nat.zero_le _, ?_, ?_, fun j hj => absurd hj (Nat.not_lt_zero _)⟩⟩
    · cases h'; rfl
    · cases h'; exact h
  | case4 c i lo hi tail h ih =>
    have h1 : ¬ IsCand maxLen (0xb5 :: (0x62 :: c :: i :: lo :: hi :: tail) ++ t) := by
      rintro ⟨c', i', lo', hi', tl, h1, h2⟩
      simp only [header, List.cons_append, List.cons.injEq, true_and] at h1
      obtain ⟨-, -, rfl, rfl, -⟩ := h1
      exact h h2
    have h2 : ¬ IsCand maxLen ((0x62 : UInt8) :: (c :: i :: lo :: hi :: tail) ++ t) :=
      not_isCand_of_ne (by decide)
    constructor
    · intro r hr
      obtain ⟨k, hk, h3, h4⟩ := ih.1 r hr
      exact ⟨k + 2, by simp only [List.length_cons] at hk ⊢; omega, by rw [h3]; rfl,
        shift _ _ _ h1 (shift _ _ _ h2 h4)⟩
    · intro c' i' lo' hi' tail' hr
      obtain ⟨k, hk, h3, h5, h4⟩ := ih.2 _ _ _ _ _ hr
      exact ⟨k + 2, by simp only [List.length_cons] at hk ⊢; omega, by rw [← h3]; rfl, h5,
        shift _ _ _ h1 (shift _ _ _ h2 h4)⟩
  | case5 => exact ⟨fun r h => ⟨0, by simp, by cases h; rfl, by simp⟩, fun _ _ _ _ _ h => by cases h⟩
  | case6 c u hc ih =>
    have h1 : ¬ IsCand maxLen (0xb5 :: (c :: u) ++ t) := by
      rintro ⟨c', i', lo', hi', tl, h1, h2⟩
      simp only [header, List.cons_append, List.cons.injEq, true_and] at h1
      exact hc h1.1
    constructor
    · intro r hr
      obtain ⟨k, hk, h3, h4⟩ := ih.1 r hr
      exact ⟨k + 1, by simp only [List.length_cons] at hk ⊢; omega, by rw [h3]; rfl,
        shift _ _ _ h1 h4⟩
    · intro c' i' lo' hi' tail' hr
      obtain ⟨k, hk, h3, h5, h4⟩ := ih.2 _ _ _ _ _ hr
      exact ⟨k + 1, by simp only [List.length_cons] at hk ⊢; omega, by rw [← h3]; rfl, h5,
        shift _ _ _ h1 h4⟩
  | case7 b u hb ih =>
    have h1 : ¬ IsCand maxLen (b :: u ++ t) := not_isCand_of_ne hb
    constructor
    · intro r hr
      obtain ⟨k, hk, h3, h4⟩ := ih.1 r hr
      exact ⟨k + 1, by simp only [List.length_cons] at hk ⊢; omega, by rw [h3]; rfl,
        shift _ _ _ h1 h4⟩
    · intro c' i' lo' hi' tail' hr
      obtain ⟨k, hk, h3, h5, h4⟩ := ih.2 _ _ _ _ _ hr
      exact ⟨k + 1, by simp only [List.length_cons] at hk ⊢; omega, by rw [← h3]; rfl, h5,
        shift _ _ _ h1 h4⟩

theorem isCand_frame {c i : UInt8} {p rest : Bytes} (hp : p.length ≤ maxLen) (hm : maxLen ≤ 65535) :
    IsCand maxLen (frame c i p ++ rest) := by
  rw [frame_eq_header]
  exact ⟨_, _, _, _, _, rfl, by rw [announced_ofNat (by omega)]; exact hp⟩

/-- Dropping part of the bytes before the first frame. -/
theorem junky_drop {junk rest p : Bytes} {c i : UInt8} {fs : List (UInt8 × UInt8 × Bytes)} {k : Nat}
    (hp : p.length ≤ maxLen) (hn : NoFrameIn maxLen junk.length (junk ++ frame c i p ++ rest))
    (hj : Junky maxLen n rest fs) (hk : k ≤ junk.length) :
    Junky maxLen n ((junk ++ frame c i p ++ rest).drop k) ((c, i, p) :: fs) := by
  have e : (junk ++ frame c i p ++ rest).drop k = junk.drop k ++ frame c i p ++ rest := by
    rw [List.append_assoc, List.drop_append_of_le_length hk, List.append_assoc]
  rw [e]
  refine .cons hp ?_ hj
  intro j hj c' i' p' rest' hp'
  rw [← e, List.drop_drop]
  rw [List.length_drop] at hj
  exact hn (k + j) (by omega) c' i' p' rest' hp'

/-- One step of the decoder on the known part `s` of such a stream `s ++ t`. -/
theorem step_junky {s t r junk rest p : Bytes} {c i : UInt8} {ev : Option Ev}
    {fs : List (UInt8 × UInt8 × Bytes)} (hm : maxLen ≤ 65535)
    (hp : p.length ≤ maxLen) (hn : NoFrameIn maxLen junk.length (junk ++ frame c i p ++ rest))
    (hj : Junky maxLen n rest fs) (hfit : p.length + 7 ≤ cap)
    (hst : s ++ t = junk ++ frame c i p ++ rest) (h : Step maxLen cap s ev r) :
    (packets ev.toList = [] ∧ Junky maxLen n (r ++ t) ((c, i, p) :: fs)) ∨
    (packets ev.toList = [(c, i, p)] ∧ r ++ t = rest) := by
  have hX : (s ++ t).drop junk.length = frame c i p ++ rest := by
    rw [hst, List.append_assoc, List.drop_left]
  have hcX : IsCand maxLen ((s ++ t).drop junk.length) := by rw [hX]; exact isCand_frame hp hm
  -- the candidate of `scan` in the whole stream
  have hcand : ∀ c' i' lo hi tail, scan maxLen s = .cand c' i' lo hi tail →
      announced lo hi ≤ maxLen ∧
      ((∃ k, k + 2 ≤ junk.length ∧ (s ++ t).drop k = header c' i' lo hi (tail ++ t)) ∨
      header c' i' lo hi (tail ++ t) = frame c i p ++ rest) := by
    intro c' i' lo hi tail hs
    obtain ⟨k, hk, h1, h2, h3⟩ := (scan_pos maxLen s t).2 _ _ _ _ _ hs
    have h4 : k ≤ junk.length := by
      rcases Nat.lt_or_ge junk.length k with h | h
      · exact absurd hcX (h3 _ h)
      · exact h
    have h5 : (s ++ t).drop k = header c' i' lo hi (tail ++ t) := by
      rw [List.drop_append_of_le_length hk, h1]; rfl
    refine ⟨h2, ?_⟩
    rcases Nat.lt_or_ge (k + 1) junk.length with h | h
    · exact Or.inl ⟨k, h, h5⟩
    · rcases Nat.lt_or_ge k junk.length with h' | h'
      · exfalso
        have e : k + 1 = junk.length := by omega
        have h6 : ((s ++ t).drop k).drop 1 = frame c i p ++ rest := by
          rw [List.drop_drop, e, hX]
        rw [h5] at h6
        simp only [header, List.drop_succ_cons, List.drop_zero, frame, List.cons_append,
          List.cons.injEq] at h6
        exact absurd h6.1 (by decide)
      · have e : k = junk.length := by omega
        right
        rw [← h5, e, hX]
  have hinj : ∀ c' i' lo hi tail, header c' i' lo hi (tail ++ t) = frame c i p ++ rest →
      c' = c ∧ i' = i ∧ announced lo hi = p.length ∧
      tail ++ t = p ++ ckA (body c i p) :: ckB (body c i p) :: rest ∧
      covered c' i' lo hi (tail ++ t) = body c i p := by
    intro c' i' lo hi tail h
    rw [frame_eq_header] at h
    simp only [header, List.cons.injEq, true_and] at h
    obtain ⟨rfl, rfl, rfl, rfl, h⟩ := h
    refine ⟨rfl, rfl, announced_ofNat (by omega), h, ?_⟩
    rw [h, covered_frame (by omega)]
  have skip : ∀ c' i' lo hi tail k, k + 2 ≤ junk.length →
      (s ++ t).drop k = header c' i' lo hi (tail ++ t) →
      Junky maxLen n (c' :: i' :: lo :: hi :: tail ++ t) ((c, i, p) :: fs) := by
    intro c' i' lo hi tail k hk h
    have h1 : (s ++ t).drop (k + 2) = c' :: i' :: lo :: hi :: tail ++ t := by
      rw [← List.drop_drop, h]; rfl
    rw [← h1, hst]
    exact junky_drop hp hn hj hk
  have stay : ∀ k, k ≤ junk.length → Junky maxLen n ((s ++ t).drop k) ((c, i, p) :: fs) := by
    intro k hk
    rw [hst]
    exact junky_drop hp hn hj hk
  cases h with
  | wait hs =>
    obtain ⟨k, hk, h1, h3⟩ := (scan_pos maxLen s t).1 _ hs
    have h4 : k ≤ junk.length := by
      rcases Nat.lt_or_ge junk.length k with h | h
      · exact absurd hcX (h3 _ h)
      · exact h
    refine Or.inl ⟨rfl, ?_⟩
    rw [h1, ← List.drop_append_of_le_length hk]
    exact stay k h4
  | @incomplete c' i' lo hi tail hs h1 h2 =>
    refine Or.inl ⟨rfl, ?_⟩
    rcases (hcand _ _ _ _ _ hs).2 with ⟨k, hk, h3⟩ | h3
    · have := stay k (by omega)
      rw [h3] at this
      exact this
    · have := stay junk.length (Nat.le_refl _)
      rw [hX, ← h3] at this
      exact this
  | @noRoom c' i' lo hi tail hs h1 h2 =>
    refine Or.inl ⟨rfl, ?_⟩
    rcases (hcand _ _ _ _ _ hs).2 with ⟨k, hk, h3⟩ | h3
    · exact skip _ _ _ _ _ k hk h3
    · exfalso
      have h4 := (hinj _ _ _ _ _ h3).2.2.1
      simp only [header, List.length_cons] at h2
      omega
  | @noRoomComplete c' i' lo hi tail hs h1 h2 =>
    refine Or.inl ⟨rfl, ?_⟩
    rcases (hcand _ _ _ _ _ hs).2 with ⟨k, hk, h3⟩ | h3
    · exact skip _ _ _ _ _ k hk h3
    · exfalso
      have h4 := (hinj _ _ _ _ _ h3).2.2.1
      omega
  | @packet c' i' lo hi tail a b after hs h1 h2 h3 =>
    obtain ⟨hl, hc⟩ := hcand _ _ _ _ _ hs
    have hcov := covered_append (c := c') (i := i') (lo := lo) (hi := hi) t h1
    have h1t : (tail ++ t).drop (announced lo hi) = a :: b :: (r ++ t) := by
      have := after_length h1
      rw [List.drop_append_of_le_length (by omega), h1]; rfl
    rcases hc with ⟨k, hk, h4⟩ | h4
    · exfalso
      have h5 := header_eq_frame (c := c') (i := i') h1t (by rw [h2]; simp [hcov]) (by rw [h3]; simp [hcov])
      rw [← h4, hst] at h5
      refine hn k (by omega) _ _ _ _ ?_ h5
      rw [List.length_take]; omega
    · obtain ⟨rfl, rfl, h5, h6, h7⟩ := hinj _ _ _ _ _ h4
      right
      rw [h5] at h1t ⊢
      rw [h6, List.drop_left] at h1t
      have h8 : tail.take p.length = p := by
        have := after_length h1
        have h9 := congrArg (List.take p.length) h6
        rw [List.take_append_of_le_length (by omega), List.take_left] at h9
        exact h9
      rw [h8]
      simp only [List.cons.injEq] at h1t
      exact ⟨rfl, h1t.2.2.symm⟩
  | @bad c' i' lo hi tail a b after hs h1 h2 =>
    refine Or.inl ⟨rfl, ?_⟩
    obtain ⟨hl, hc⟩ := hcand _ _ _ _ _ hs
    rcases hc with ⟨k, hk, h4⟩ | h4
    · exact skip _ _ _ _ _ k hk h4
    · exfalso
      have h1t : (tail ++ t).drop (announced lo hi) = a :: b :: (after ++ t) := by
        have := after_length h1
        rw [List.drop_append_of_le_length (by omega), h1]; rfl
      obtain ⟨rfl, rfl, h5, h6, h7⟩ := hinj _ _ _ _ _ h4
      have hcov : covered c' i' lo hi tail = body c' i' p := by
        rw [← h7]
        have := after_length h1
        simp only [covered]
        rw [List.take_append_of_le_length (by omega)]
      rw [h5, h6, List.drop_left] at h1t
      simp only [List.cons.injEq] at h1t
      exact h2 ⟨by rw [hcov, ← h1t.1], by rw [hcov, ← h1t.2.1]⟩

/-- What was returned so far: a proper beginning of the frames, with the others still ahead in `s`; or
all frames and perhaps more. -/
def Ahead (maxLen n : Nat) (fs out : List (UInt8 × UInt8 × Bytes)) (s : Bytes) : Prop :=
  (∃ fs2, fs2 ≠ [] ∧ fs = out ++ fs2 ∧ Junky maxLen n s fs2) ∨ (∃ more, out = fs ++ more)

theorem step_ahead {s t r : Bytes} {ev : Option Ev} {fs out : List (UInt8 × UInt8 × Bytes)}
    (hm : maxLen ≤ 65535) (hfit : ∀ f ∈ fs, f.2.2.length + 7 ≤ cap)
    (hA : Ahead maxLen n fs out (s ++ t)) (h : Step maxLen cap s ev r) :
    Ahead maxLen n fs (out ++ packets ev.toList) (r ++ t) := by
  rcases hA with ⟨fs2, h1, h2, h3⟩ | ⟨more, h1⟩
  · generalize hst : s ++ t = st at h3
    cases h3 with
    | nil => exact absurd rfl h1
    | @cons junk rest c i p fs2 hp hn hj =>
      rcases step_junky hm hp hn hj (hfit (c, i, p) (by rw [h2]; simp)) hst h with ⟨h4, h5⟩ | ⟨h4, h5⟩
      · rw [h4, List.append_nil]
        exact Or.inl ⟨_, by simp, h2, h5⟩
      · rw [h4, h5]
        cases hj with
        | nil hl => exact Or.inr ⟨[], by rw [h2, List.append_nil]⟩
        | cons a b c => exact Or.inl ⟨_, List.cons_ne_nil _ _, by rw [h2]; simp, .cons a b c⟩
  · exact Or.inr ⟨more ++ packets ev.toList, by rw [h1, List.append_assoc]⟩

theorem run_ahead {s t r : Bytes} {evs : List (Option Ev)} {fs out : List (UInt8 × UInt8 × Bytes)}
    (hm : maxLen ≤ 65535) (hfit : ∀ f ∈ fs, f.2.2.length + 7 ≤ cap)
    (h : Run maxLen cap s evs r) (hA : Ahead maxLen n fs out (s ++ t)) :
    Ahead maxLen n fs (out ++ packets (reports evs)) (r ++ t) := by
  induction h generalizing out with
  | nil s => simpa [reports, packets] using hA
  | @cons s s' s'' ev evs h1 _ ih =>
    have := ih (step_ahead hm hfit hA h1)
    have e : packets (reports (ev :: evs)) = packets ev.toList ++ packets (reports evs) := by
      rw [← packets_append]
      cases ev <;> rfl
    rw [e, ← List.append_assoc]
    exact this

theorem ahead_trim {s t : Bytes} {fs out : List (UInt8 × UInt8 × Bytes)}
    (hA : Ahead maxLen n fs out (s ++ t)) : Ahead maxLen n fs out (trim s ++ t) := by
  rcases hA with ⟨fs2, h1, h2, h3⟩ | h
  · refine Or.inl ⟨fs2, h1, h2, ?_⟩
    generalize hst : s ++ t = st at h3
    cases h3 with
    | nil => exact absurd rfl h1
    | @cons junk rest c i p fs2 hp hn hj =>
      unfold trim
      split
      · rename_i hmem
        -- the dropped bytes are all different from the sync byte
        obtain ⟨pre, h4, h5⟩ : ∃ pre, s = pre ++ s.dropWhile (· ≠ 0xb5) ∧ (0xb5 : UInt8) ∉ pre := by
          refine ⟨s.takeWhile (· ≠ 0xb5), (List.takeWhile_append_dropWhile).symm, fun hc => ?_⟩
          have := List.mem_takeWhile_imp hc
          simp at this
        have hk : pre.length ≤ junk.length := by
          rcases Nat.lt_or_ge junk.length pre.length with hlt | hge
          · exfalso
            have hX : (s ++ t).drop junk.length = frame c i p ++ rest := by
              rw [hst, List.append_assoc, List.drop_left]
            rw [h4, List.append_assoc, List.drop_append_of_le_length (by omega)] at hX
            apply h5
            have h6 : (pre.drop junk.length) ≠ [] := by
              intro h; have := congrArg List.length h; simp at this; omega
            obtain ⟨a, l, h7⟩ := List.exists_cons_of_ne_nil h6
            rw [h7] at hX
            simp only [frame, List.cons_append, List.cons.injEq] at hX
            have : a ∈ pre := List.mem_of_mem_drop (by rw [h7]; simp)
            rw [hX.1] at this
            exact this
          · exact hge
        have h6 : (s ++ t).drop pre.length = s.dropWhile (· ≠ 0xb5) ++ t := by
          conv => lhs; rw [h4]
          rw [List.append_assoc, List.drop_left]
        rw [← h6, hst]
        exact junky_drop hp hn hj hk
      · rw [hst]
        exact .cons hp hn hj
  · exact Or.inr h

theorem hist_ahead {b b' t : Bytes} {h : List (Bytes × Nat)} {evss : List (List (Option Ev))}
    {fs out : List (UInt8 × UInt8 × Bytes)} (hm : maxLen ≤ 65535)
    (hfit : ∀ f ∈ fs, f.2.2.length + 7 ≤ cap) (hh : Hist B maxLen cap b h evss b')
    (hk : B ≤ cap ∨ (5 ≤ cap ∧ ∀ evs ∈ evss, none ∈ evs))
    (hA : Ahead maxLen n fs out (b ++ fed h ++ t)) :
    Ahead maxLen n fs (out ++ packets (reports evss.flatten)) (b' ++ t) := by
  induction hh generalizing out with
  | nil b => simpa [fed, reports, packets] using hA
  | @cons b c k evs s rest evss b' hB hrun hn _ ih =>
    have hfed : b ++ fed ((c, k) :: rest) ++ t = (b ++ c) ++ (fed rest ++ t) := by simp [fed]
    rw [hfed] at hA
    have hs : s.take cap = s := by
      apply List.take_of_length_le
      rcases hk with hk | ⟨hk1, hk2⟩
      · have h1 := (run_suffix hrun).length_le
        have h2 := (trim_suffix (b ++ c)).length_le
        omega
      · obtain ⟨k, s0, m, _, _, _, _, e5⟩ := run_exhausted hrun (hk2 _ (by simp))
        have := (step_none_length e5).1
        omega
    rw [hs] at ih
    have h1 := run_ahead hm hfit hrun (ahead_trim hA)
    rw [← List.append_assoc] at h1
    have h2 := ih (hk.imp_right fun h => ⟨h.1, fun e he => h.2 e (by simp [he])⟩) h1
    rw [List.append_assoc, ← packets_append] at h2
    simpa [reports] using h2

/-- Bytes without `b5 62` are skipped. -/
theorem scan_noSync {sep : Bytes} (h : NoSync sep) (s : Bytes) (hs : s.head? = some 0xb5) :
    scan maxLen (sep ++ s) = scan maxLen s := by
  induction sep with
  | nil => rfl
  | cons x l ih =>
    have ih' := ih fun a b hab => h (x :: a) b (by rw [hab]; rfl)
    by_cases hx : x = 0xb5
    · subst hx
      have : ∃ y u, l ++ s = y :: u ∧ y ≠ 0x62 := by
        cases l with
        | nil =>
          cases s with
          | nil => cases hs
          | cons y u =>
            simp only [List.head?_cons, Option.some.injEq] at hs
            exact ⟨y, u, rfl, by rw [hs]; decide⟩
        | cons y u => exact ⟨y, u ++ s, rfl, fun hy => h [] u (by rw [hy]; rfl)⟩
      obtain ⟨y, u, e, hy⟩ := this
      rw [List.cons_append, e, scan.eq_def]
      simp only [if_pos, if_neg hy]
      rw [← e, ih']
    · rw [List.cons_append, scan.eq_def]
      simp only [if_neg hx]
      exact ih'

/-- The end of the stream: nothing is found, at most a last `b5` is kept. -/
theorem scan_noSync_last {last : Bytes} (h : NoSync last) :
    scan maxLen last = .wait (if last.getLast? = some 0xb5 then [0xb5] else []) := by
  induction last with
  | nil => simp [scan]
  | cons x l ih =>
    have ih' := ih fun a b hab => h (x :: a) b (by rw [hab]; rfl)
    cases l with
    | nil =>
      rw [scan.eq_def]
      by_cases hx : x = 0xb5 <;> simp [hx, scan]
    | cons y u =>
      have e : (x :: y :: u).getLast? = (y :: u).getLast? := by simp [List.getLast?_cons_cons]
      rw [e, ← ih', scan.eq_def]
      by_cases hx : x = 0xb5
      · subst hx
        have hy : y ≠ 0x62 := fun hy => h [] u (by rw [hy]; rfl)
        simp only [if_pos, if_neg hy]
      · simp only [if_neg hx]

/-- Frames separated by bytes without `b5 62`. -/
theorem decode_noSync {items : List (Bytes × UInt8 × UInt8 × Bytes)} {last : Bytes}
    (hs : ∀ x ∈ items, NoSync x.1) (hl : NoSync last)
    (hp : ∀ x ∈ items, x.2.2.2.length ≤ maxLen) (hm : maxLen ≤ 65535) :
    decode maxLen (cleanStream items last) =
      (items.map fun x => .packet x.2.1 x.2.2.1 x.2.2.2,
        if last.getLast? = some 0xb5 then [0xb5] else []) := by
  induction items with
  | nil => exact decode_wait (scan_noSync_last hl)
  | cons x items ih =>
    obtain ⟨sep, c, i, p⟩ := x
    have hp0 := hp (sep, c, i, p) (by simp)
    have hs0 := hs (sep, c, i, p) (by simp)
    simp only at hp0 hs0
    have h1 : decode maxLen (cleanStream ((sep, c, i, p) :: items) last) =
        decode maxLen ([] ++ frame c i p ++ cleanStream items last) := by
      apply decode_congr
      rw [cleanStream, List.append_assoc]
      exact scan_noSync hs0 _ rfl
    rw [h1, decode_frame (by simp) hp0 (by omega), ih (fun x hx => hs x (by simp [hx]))
      (fun x hx => hp x (by simp [hx]))]
    rfl

/-- Streams with frames ahead are longer than the announced number of bytes. -/
theorem junky_length {s : Bytes} {fs : List (UInt8 × UInt8 × Bytes)} (h : Junky maxLen n s fs) :
    n ≤ s.length := by
  induction h with
  | nil h => exact h
  | cons _ _ _ ih => simp only [List.length_append]; omega

theorem junky_payload {s : Bytes} {fs : List (UInt8 × UInt8 × Bytes)} (h : Junky maxLen n s fs) :
    ∀ f ∈ fs, f.2.2.length ≤ maxLen := by
  induction h with
  | nil => simp
  | cons hp _ _ ih =>
    intro f hf
    rcases List.mem_cons.mp hf with rfl | hf
    · exact hp
    · exact ih f hf

theorem ahead_of_junky {s : Bytes} {fs : List (UInt8 × UInt8 × Bytes)} (h : Junky maxLen n s fs) :
    Ahead maxLen n fs [] s := by
  cases fs with
  | nil => exact .inr ⟨[], rfl⟩
  | cons f fs => exact .inl ⟨_, List.cons_ne_nil _ _, rfl, h⟩

/-- What a parser holds after exhausted iterators. -/
theorem hist_rest {b b' : Bytes} {h : List (Bytes × Nat)} {evss : List (List (Option Ev))}
    (hh : Hist B maxLen cap b h evss b') (hk : ∀ evs ∈ evss, none ∈ evs) :
    b'.length ≤ max b.length (min cap (maxLen + 7)) := by
  induction hh with
  | nil b => omega
  | @cons b c k evs s rest evss b' hB hrun hn _ ih =>
    obtain ⟨k, s0, m, _, _, _, _, e5⟩ := run_exhausted hrun (hk _ (by simp))
    have := step_none_length e5
    have h2 := ih fun e he => hk e (by simp [he])
    rw [List.length_take] at h2
    omega

theorem decode_no_tooLarge (maxLen : Nat) (s : Bytes) (m : Nat) :
    Ev.tooLarge m ∉ (decode maxLen s).1 := by
  fun_induction decode maxLen s <;> simp_all

end Ublox
