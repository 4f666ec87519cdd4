import Verif.Lemmas.Decode
import Verif.Spec.Stream

/-!
# Steps, runs, and whole parser histories
-/

namespace Ublox.Spec

variable {maxLen cap : Nat}

/-! ## `trim` -/

theorem trim_eq (s : Bytes) :
    trim s = match s.findIdx? (· == (0xb5 : UInt8)) with
      | some i => s.drop i
      | none => s := by
  unfold trim
  split
  · rename_i h
    have : ∀ s : Bytes, (0xb5 : UInt8) ∈ s → ∃ i, s.findIdx? (· == (0xb5 : UInt8)) = some i ∧
        s.dropWhile (· ≠ 0xb5) = s.drop i := by
      intro s hs
      induction s with
      | nil => simp at hs
      | cons x t ih =>
        by_cases hx : x = 0xb5
        · exact ⟨0, by simp [List.findIdx?_cons, hx], by simp [hx]⟩
        · obtain ⟨i, h1, h2⟩ := ih (by
            rcases List.mem_cons.mp hs with h | h
            · exact absurd h.symm hx
            · exact h)
          refine ⟨i + 1, ?_, ?_⟩
          · simp [List.findIdx?_cons, hx, h1]
          · simpa [hx] using h2
    obtain ⟨i, h1, h2⟩ := this s h
    rw [h1, h2]
  · rename_i h
    have : s.findIdx? (· == (0xb5 : UInt8)) = none := by
      simp only [List.findIdx?_eq_none_iff, beq_eq_false_iff_ne]
      intro x hx hc
      exact h (hc ▸ hx)
    rw [this]

theorem trim_suffix (s : Bytes) : trim s <:+ s := by
  rw [trim_eq]
  split
  · exact List.drop_suffix _ _
  · exact List.suffix_refl _

theorem scan_trim (maxLen : Nat) (s : Bytes) : scan maxLen (trim s) = scan maxLen s := by
  rw [trim_eq]
  obtain ⟨h1, h2⟩ := scan_skip maxLen s
  split
  · rename_i i hi
    exact (h2 i hi).2.1.symm
  · rfl

theorem decode_trim (maxLen : Nat) (s : Bytes) : decode maxLen (trim s) = decode maxLen s :=
  decode_congr (scan_trim maxLen s)

/-! ## Steps -/

/-- Every report consumes at least two bytes; nothing is ever added. -/
theorem step_length {s r : Bytes} {ev : Option Ev} (h : Step maxLen cap s ev r) :
    r.length + (if ev.isSome then 2 else 0) ≤ s.length := by
  cases h with
  | wait h => simpa using (scan_length_le maxLen s).1 _ h
  | incomplete h _ _ => simpa using (scan_length_le maxLen s).2 _ _ _ _ _ h
  | noRoom h _ _ => have := cand_length h; simp; omega
  | noRoomComplete h _ _ => have := cand_length h; simp; omega
  | packet h h2 _ _ => have := cand_length h; have := after_length h2; simp; omega
  | bad h _ _ => have := cand_length h; simp; omega

/-- What stays pending is a suffix. -/
theorem step_suffix {s r : Bytes} {ev : Option Ev} (h : Step maxLen cap s ev r) : r <:+ s := by
  have key : ∀ {c i lo hi tail}, scan maxLen s = .cand c i lo hi tail →
      (c :: i :: lo :: hi :: tail) <:+ s := fun h =>
    List.IsSuffix.trans ⟨[0xb5, 0x62], rfl⟩ ((scan_suffix maxLen s).2 _ _ _ _ _ h)
  cases h with
  | wait h => exact ((scan_suffix maxLen s).1 _ h).1
  | incomplete h _ _ => exact (scan_suffix maxLen s).2 _ _ _ _ _ h
  | noRoom h _ _ => exact key h
  | noRoomComplete h _ _ => exact key h
  | @packet c i lo hi tail a b after h h2 _ _ =>
    refine List.IsSuffix.trans ?_ (key h)
    refine List.IsSuffix.trans (l₂ := tail) ?_ ⟨[_, _, _, _], rfl⟩
    refine List.IsSuffix.trans ?_ (List.drop_suffix (announced lo hi) tail)
    rw [h2]
    exact ⟨[_, _], rfl⟩
  | bad h _ _ => exact key h

/-- After "nothing to report" the same answer comes again and nothing changes. -/
theorem step_none_idem {s r r' : Bytes} {ev : Option Ev} (h : Step maxLen cap s none r)
    (h' : Step maxLen cap r ev r') : ev = none ∧ r' = r := by
  cases h with
  | wait h =>
    have h := scan_wait_idem h
    cases h' with
    | wait h2 => rw [h] at h2; injection h2 with h2; exact ⟨rfl, h2.symm⟩
    | incomplete h2 => rw [h] at h2; cases h2
    | noRoom h2 => rw [h] at h2; cases h2
    | noRoomComplete h2 => rw [h] at h2; cases h2
    | packet h2 => rw [h] at h2; cases h2
    | bad h2 => rw [h] at h2; cases h2
  | @incomplete c i lo hi tail h hl hc =>
    have h := (scan_header maxLen c i lo hi tail).trans (if_pos (scan_cand_le h))
    cases h' with
    | wait h2 => rw [h] at h2; cases h2
    | incomplete h2 => rw [h] at h2; cases h2; exact ⟨rfl, rfl⟩
    | noRoom h2 _ h3 => rw [h] at h2; cases h2; omega
    | noRoomComplete h2 h3 => rw [h] at h2; cases h2; omega
    | packet h2 h3 => rw [h] at h2; cases h2; have := after_length h3; omega
    | bad h2 h3 => rw [h] at h2; cases h2; have := after_length h3; omega

/-- Bound on what stays pending after "nothing to report". -/
theorem step_none_length {s r : Bytes} (h : Step maxLen cap s none r) :
    r.length ≤ max 5 cap ∧ r.length < maxLen + 8 ∧ (r = [] ∨ ∃ t, r = 0xb5 :: t) := by
  cases h with
  | wait h =>
    have := scan_wait_length h
    exact ⟨by omega, by omega, ((scan_suffix maxLen s).1 _ h).2⟩
  | incomplete h h2 h3 =>
    have := scan_cand_le h
    refine ⟨by omega, ?_, .inr ⟨_, rfl⟩⟩
    simp [header]; omega

/-- What decoding announces. -/
theorem fits_of_le (h : maxLen + 7 ≤ cap) (s : Bytes) : Fits maxLen cap s := by
  intro n hn
  induction hn with
  | here h => have := scan_cand_le h; omega
  | afterPacket _ _ _ _ _ ih => exact ih
  | afterBad _ _ _ _ ih => exact ih

/-- If everything fits, a step is a step of `decode`. -/
theorem step_decode {s r : Bytes} {ev : Option Ev} (hf : Fits maxLen cap s)
    (h : Step maxLen cap s ev r) :
    Fits maxLen cap r ∧ decode maxLen s = (ev.toList ++ (decode maxLen r).1, (decode maxLen r).2) ∧
    (ev = none → decode maxLen r = ([], r)) := by
  cases h with
  | wait h =>
    have h' := scan_wait_idem h
    refine ⟨?_, ?_, fun _ => decode_wait h'⟩
    · intro n hn
      cases hn with
      | here h2 => rw [h'] at h2; cases h2
      | afterPacket h2 => rw [h'] at h2; cases h2
      | afterBad h2 => rw [h'] at h2; cases h2
    · rw [decode_wait h, decode_wait h']; rfl
  | @incomplete c i lo hi tail h hl hc =>
    have h' := (scan_header maxLen c i lo hi tail).trans (if_pos (scan_cand_le h))
    refine ⟨?_, ?_, fun _ => decode_incomplete h' hl⟩
    · intro n hn
      refine hf n ?_
      cases hn with
      | here h2 => rw [h'] at h2; cases h2; exact .here h
      | afterPacket h2 h3 => rw [h'] at h2; cases h2; have := after_length h3; omega
      | afterBad h2 h3 => rw [h'] at h2; cases h2; have := after_length h3; omega
    · rw [decode_incomplete h hl, decode_incomplete h' hl]; rfl
  | noRoom h h2 h3 =>
    have := hf _ (.here h)
    simp [header] at h3
    omega
  | noRoomComplete h h2 h3 =>
    have := hf _ (.here h)
    omega
  | packet h h2 h3 h4 =>
    refine ⟨fun n hn => hf n (.afterPacket h h2 h3 h4 hn), ?_, by simp⟩
    rw [decode_packet h h2 h3 h4]; rfl
  | bad h h2 h3 =>
    refine ⟨fun n hn => hf n (.afterBad h h2 h3 hn), ?_, by simp⟩
    rw [decode_bad h h2 h3]; rfl

theorem announces_congr {s s' : Bytes} {n : Nat} (h : scan maxLen s = scan maxLen s')
    (hn : Announces maxLen s n) : Announces maxLen s' n := by
  cases hn with
  | here h1 => exact .here (h.symm.trans h1)
  | afterPacket h1 h2 h3 h4 h5 => exact .afterPacket (h.symm.trans h1) h2 h3 h4 h5
  | afterBad h1 h2 h3 h4 => exact .afterBad (h.symm.trans h1) h2 h3 h4

/-- More input only adds announced lengths. -/
theorem announces_append {s : Bytes} {n : Nat} (t : Bytes) (h : Announces maxLen s n) :
    Announces maxLen (s ++ t) n := by
  induction h with
  | here h => exact .here ((scan_append maxLen _ t).2 _ _ _ _ _ h)
  | @afterPacket s c i lo hi tail a b after n h h1 h2 h3 h4 ih =>
    obtain ⟨f1, f2, f3⟩ := covered_append (c := c) (i := i) t h1
    exact .afterPacket ((scan_append maxLen _ t).2 _ _ _ _ _ h) f2 (by rw [f1]; exact h2)
      (by rw [f1]; exact h3) ih
  | @afterBad s c i lo hi tail a b after n h h1 h2 h3 ih =>
    obtain ⟨f1, f2, f3⟩ := covered_append (c := c) (i := i) t h1
    exact .afterBad ((scan_append maxLen _ t).2 _ _ _ _ _ h) f2 (by rw [f1]; exact h2) ih

theorem announces_rest {s t : Bytes} {n : Nat}
    (h : Announces maxLen ((decode maxLen s).2 ++ t) n) : Announces maxLen (s ++ t) n := by
  generalize hk : s.length = k
  induction k using Nat.strongRecOn generalizing s with
  | ind k ih =>
    subst hk
    rcases decode_cases maxLen s with
      ⟨r, h0⟩ | ⟨c, i, lo, hi, tail, h0, h1 | ⟨x, y, after, h1, ⟨h2, h3⟩ | h2⟩⟩
    · rw [decode_wait h0] at h
      exact announces_congr ((scan_append maxLen s t).1 r h0).symm h
    · rw [decode_incomplete h0 h1] at h
      refine announces_congr ?_ h
      show scan maxLen (header c i lo hi (tail ++ t)) = _
      rw [scan_header, if_pos (scan_cand_le h0), (scan_append maxLen s t).2 _ _ _ _ _ h0]
    · have hlen := cand_length h0
      have halen := after_length h1
      obtain ⟨f1, f2, f3⟩ := covered_append (c := c) (i := i) t h1
      rw [decode_packet h0 h1 h2 h3] at h
      exact .afterPacket ((scan_append maxLen _ t).2 _ _ _ _ _ h0) f2 (by rw [f1]; exact h2)
        (by rw [f1]; exact h3) (ih _ (by omega) h rfl)
    · have hlen := cand_length h0
      have halen := after_length h1
      obtain ⟨f1, f2, f3⟩ := covered_append (c := c) (i := i) t h1
      rw [decode_bad h0 h1 h2] at h
      exact .afterBad ((scan_append maxLen _ t).2 _ _ _ _ _ h0) f2 (by rw [f1]; exact h2)
        (ih _ (by simp; omega) h rfl)

theorem fits_append_left {s t : Bytes} (h : Fits maxLen cap (s ++ t)) : Fits maxLen cap s :=
  fun n hn => h n (announces_append t hn)

theorem fits_rest {s t : Bytes} (h : Fits maxLen cap (s ++ t)) :
    Fits maxLen cap ((decode maxLen s).2 ++ t) := fun n hn => h n (announces_rest hn)

theorem fits_congr {s s' : Bytes} (h : scan maxLen s = scan maxLen s')
    (hf : Fits maxLen cap s) : Fits maxLen cap s' :=
  fun n hn => hf n (announces_congr h.symm hn)

/-! ## Runs -/

/-- The reports in a list of answers. -/
def reports (evs : List (Option Ev)) : List Ev := evs.filterMap id

theorem run_length {s r : Bytes} {evs : List (Option Ev)} (h : Run maxLen cap s evs r) :
    r.length + 2 * (reports evs).length ≤ s.length := by
  induction h with
  | nil => simp [reports]
  | @cons s s' s'' ev evs h _ ih =>
    have := step_length h
    cases ev <;> simp [reports] at * <;> omega

theorem run_suffix {s r : Bytes} {evs : List (Option Ev)} (h : Run maxLen cap s evs r) :
    r <:+ s := by
  induction h with
  | nil => exact List.suffix_refl _
  | cons h _ ih => exact ih.trans (step_suffix h)

/-- After the first "nothing to report" nothing more happens. -/
theorem run_none {s r : Bytes} {evs : List (Option Ev)} {s0 : Bytes}
    (h0 : Step maxLen cap s0 none s) (h : Run maxLen cap s evs r) :
    r = s ∧ evs = List.replicate evs.length none := by
  induction h with
  | nil => exact ⟨rfl, rfl⟩
  | @cons s s' s'' ev evs h1 h2 ih =>
    obtain ⟨rfl, rfl⟩ := step_none_idem h0 h1
    obtain ⟨i1, i2⟩ := ih h0
    exact ⟨i1, by rw [List.length_cons, List.replicate_succ, ← i2]⟩

/-- An exhausted run ends right after a "nothing to report" step. -/
theorem run_exhausted {s r : Bytes} {evs : List (Option Ev)} (h : Run maxLen cap s evs r)
    (hn : none ∈ evs) :
    ∃ k s0 m, evs = k ++ List.replicate m none ∧ none ∉ k ∧ 0 < m ∧
      Run maxLen cap s k s0 ∧ Step maxLen cap s0 none r := by
  induction h with
  | nil => simp at hn
  | @cons s s' s'' ev evs h1 h2 ih =>
    cases ev with
    | none =>
      obtain ⟨rfl, e⟩ := run_none h1 h2
      exact ⟨[], s, evs.length + 1, by rw [List.replicate_succ, ← e]; rfl, by simp, by omega,
        .nil _, h1⟩
    | some e =>
      obtain ⟨k, s0, m, e1, e2, e3, e4, e5⟩ := ih (by simpa using hn)
      exact ⟨some e :: k, s0, m, by rw [e1]; rfl, by simpa using e2, e3, .cons h1 e4, e5⟩

theorem run_decode {s r : Bytes} {evs : List (Option Ev)} (hf : Fits maxLen cap s)
    (h : Run maxLen cap s evs r) :
    Fits maxLen cap r ∧
    decode maxLen s = (reports evs ++ (decode maxLen r).1, (decode maxLen r).2) := by
  induction h with
  | nil => exact ⟨hf, rfl⟩
  | @cons s s' s'' ev evs h1 h2 ih =>
    obtain ⟨h3, h4, _⟩ := step_decode hf h1
    obtain ⟨h5, h6⟩ := ih h3
    refine ⟨h5, ?_⟩
    rw [h4, h6]
    cases ev <;> simp [reports]

/-- What is announced in the rest of a stream is announced in the stream. -/
theorem step_announces {s r t : Bytes} {ev : Option Ev} {m : Nat} (hf : Fits maxLen cap s)
    (h : Step maxLen cap s ev r) (hm : Announces maxLen (r ++ t) m) :
    Announces maxLen (s ++ t) m := by
  cases h with
  | wait h => exact announces_congr ((scan_append maxLen s t).1 r h).symm hm
  | @incomplete c i lo hi tail h hl hc =>
    refine announces_congr ?_ hm
    show scan maxLen (header c i lo hi (tail ++ t)) = _
    rw [scan_header, if_pos (scan_cand_le h), (scan_append maxLen s t).2 _ _ _ _ _ h]
  | noRoom h h2 h3 =>
    have := hf _ (.here h)
    simp [header] at h3
    omega
  | noRoomComplete h h2 h3 =>
    have := hf _ (.here h)
    omega
  | @packet c i lo hi tail a b after h h1 h2 h3 =>
    obtain ⟨f1, f2, f3⟩ := covered_append (c := c) (i := i) t h1
    exact .afterPacket ((scan_append maxLen _ t).2 _ _ _ _ _ h) f2 (by rw [f1]; exact h2)
      (by rw [f1]; exact h3) hm
  | @bad c i lo hi tail a b after h h1 h2 =>
    obtain ⟨f1, f2, f3⟩ := covered_append (c := c) (i := i) t h1
    exact .afterBad ((scan_append maxLen _ t).2 _ _ _ _ _ h) f2 (by rw [f1]; exact h2) hm

theorem run_fits {s r t : Bytes} {evs : List (Option Ev)} (hf : Fits maxLen cap (s ++ t))
    (h : Run maxLen cap s evs r) : Fits maxLen cap (r ++ t) := by
  induction h with
  | nil => exact hf
  | cons h1 _ ih =>
    exact ih fun m hm => hf m (step_announces (fits_append_left hf) h1 hm)

theorem scan_trim_append (maxLen : Nat) (s t : Bytes) :
    scan maxLen (trim s ++ t) = scan maxLen (s ++ t) := by
  have h := scan_trim maxLen s
  match hs : scan maxLen s with
  | .wait r =>
    rw [(scan_append maxLen s t).1 r hs, (scan_append maxLen _ t).1 r (h.trans hs)]
  | .cand c i lo hi tail =>
    rw [(scan_append maxLen s t).2 _ _ _ _ _ hs, (scan_append maxLen _ t).2 _ _ _ _ _ (h.trans hs)]

/-- Decoding the stream after a run. -/
theorem run_decode_append {s r t : Bytes} {evs : List (Option Ev)} (hf : Fits maxLen cap s)
    (h : Run maxLen cap s evs r) :
    decode maxLen (s ++ t) =
      (reports evs ++ (decode maxLen (r ++ t)).1, (decode maxLen (r ++ t)).2) := by
  obtain ⟨_, h2⟩ := run_decode hf h
  rw [decode_append maxLen s t, decode_append maxLen r t, h2]
  simp

theorem run_exhausted_decode {s r : Bytes} {evs : List (Option Ev)} (hf : Fits maxLen cap s)
    (h : Run maxLen cap s evs r) (hn : none ∈ evs) :
    decode maxLen s = (reports evs, r) ∧ decode maxLen r = ([], r) := by
  obtain ⟨h1, h2⟩ := run_decode hf h
  obtain ⟨k, s0, m, e1, e2, e3, e4, e5⟩ := run_exhausted h hn
  obtain ⟨f1, _⟩ := run_decode hf e4
  have := (step_decode f1 e5).2.2 rfl
  exact ⟨by rw [h2, this]; simp, this⟩

theorem run_append {s s' s'' : Bytes} {e1 e2 : List (Option Ev)}
    (h1 : Run maxLen cap s e1 s') (h2 : Run maxLen cap s' e2 s'') :
    Run maxLen cap s (e1 ++ e2) s'' := by
  induction h1 with
  | nil => exact h2
  | cons h _ ih => exact .cons h (ih h2)

end Ublox.Spec
