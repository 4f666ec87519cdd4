import Verif.Lemmas.Junk
import Verif.Props.ParserDecode

/-!
# C60: bytes between the frames neither hide nor damage a frame
-/

namespace Ublox.Props

open Spec Ublox.Parser
open UnderlyingBuffer (maxCapacity)

variable {P : Type} {M : Nat} {D : Dispatch P}

/-- **C60**, growable buffer, any call pattern, any beginning of such a stream: the frames among the
answers so far are the first frames of the stream, or all of them and then whatever comes after. -/
theorem c60_vec_no_frame_lost (hM : D.maxPayloadLen + 8 ≤ M) (hm : D.maxPayloadLen ≤ 65535)
    (h : List (Bytes × Nat)) (hv : VecHolds M D h) (t : Bytes) (n : Nat)
    (fs : List (UInt8 × UInt8 × Bytes)) (hj : Junky D.maxPayloadLen n (fedBytes h ++ t) fs)
    {rss q} (hq : session M D (vecParser M) h = some (.ok (rss, q))) :
    ∃ evs : List Ev, results rss = evs.map (report D.matchPacket) ∧
      ((∃ rest, fs = packets evs ++ rest) ∨ ∃ more, packets evs = fs ++ more) := by
  obtain ⟨evss, q', h1, h2, h3⟩ := vec_session hv hM
  rw [hq] at h1
  simp only [Option.some.injEq, Except.ok.injEq, Prod.mk.injEq] at h1
  obtain ⟨rfl, rfl⟩ := h1
  refine ⟨reports evss.flatten, results_answers evss, ?_⟩
  have hlen : ∀ f ∈ fs, f.2.2.length ≤ D.maxPayloadLen := junky_payload hj
  have hA := hist_ahead (t := t) (out := []) (n := n) (fs := fs) hm
    (fun f hf => by have := hlen f hf; omega) h3 (.inl (Nat.le_refl _)) (ahead_of_junky hj)
  rcases hA with ⟨fs2, _, h4, _⟩ | ⟨more, h4⟩
  · exact .inl ⟨fs2, h4⟩
  · exact .inr ⟨more, h4⟩

/-- **C60**, growable buffer: when iterated to the end, and at least the length of a largest frame was
fed after the last frame, all frames have been returned. -/
theorem c60_vec_all_frames (hM : D.maxPayloadLen + 8 ≤ M) (hm : D.maxPayloadLen ≤ 65535)
    (h : List (Bytes × Nat)) (hc : ∀ x ∈ h, x.1.length + D.maxPayloadLen + 8 ≤ M / 2)
    (fs : List (UInt8 × UInt8 × Bytes))
    (hj : Junky D.maxPayloadLen (D.maxPayloadLen + 8) (fedBytes h) fs)
    {rss q} (hq : session M D (vecParser M) h = some (.ok (rss, q))) (he : Exhausted rss) :
    ∃ evs : List Ev, results rss = evs.map (report D.matchPacket) ∧
      (∀ n, Ev.tooLarge n ∉ evs) ∧ ∃ more, packets evs = fs ++ more := by
  obtain ⟨evss, q', h1, h2, h3⟩ := vec_session (vecHolds_of_exhausted hM hc hq he) hM
  rw [hq] at h1
  simp only [Option.some.injEq, Except.ok.injEq, Prod.mk.injEq] at h1
  obtain ⟨rfl, rfl⟩ := h1
  have hlen : ∀ f ∈ fs, f.2.2.length ≤ D.maxPayloadLen := junky_payload hj
  have hA := hist_ahead (t := []) (out := []) (fs := fs) (n := D.maxPayloadLen + 8) hm
    (fun f hf => by have := hlen f hf; omega) h3 (.inl (Nat.le_refl _))
    (by rw [List.append_nil]; exact ahead_of_junky hj)
  refine ⟨reports evss.flatten, results_answers evss, ?_, ?_⟩
  · have hdec := hist_decode h3 (fits_of_le (by omega) _) (.inl (Nat.le_refl _))
    intro n hn
    apply decode_no_tooLarge D.maxPayloadLen ([] ++ fed h) n
    rw [hdec]
    exact List.mem_append_left _ hn
  · rcases hA with ⟨fs2, _, _, h5⟩ | ⟨more, h4⟩
    · exfalso
      have h6 := junky_length h5
      rw [List.append_nil] at h6
      have h7 := hist_rest h3 (exhausted_answers he)
      simp only [List.length_nil] at h7
      omega
    · exact ⟨more, h4⟩

/-- **C60**, fixed buffer in which the frames fit, iterators exhausted: the same.  Headers in the junk
may now also be answered with `OutOfMemory`. -/
theorem c60_flb_all_frames (hM : D.maxPayloadLen + 8 ≤ M) (hm : D.maxPayloadLen ≤ 65535)
    (backing : Bytes) (hb : backing.length ≤ M / 2) (h5 : 5 ≤ backing.length)
    (h : List (Bytes × Nat)) (hs : Slices M h) (n : Nat)
    (fs : List (UInt8 × UInt8 × Bytes)) (hfit : ∀ f ∈ fs, f.2.2.length + 7 ≤ backing.length)
    (hj : Junky D.maxPayloadLen n (fedBytes h) fs)
    (hn : D.maxPayloadLen + 8 ≤ n ∨ backing.length < n)
    {rss q} (hq : session M D (flbParser M backing) h = some (.ok (rss, q))) (he : Exhausted rss) :
    ∃ evs : List Ev, results rss = evs.map (report D.matchPacket) ∧
      ∃ more, packets evs = fs ++ more := by
  obtain ⟨evss, q', h1, _, _, h3⟩ := flb_session (D := D) hb hs hM
  rw [hq] at h1
  simp only [Option.some.injEq, Except.ok.injEq, Prod.mk.injEq] at h1
  obtain ⟨rfl, rfl⟩ := h1
  have hA := hist_ahead (t := []) (out := []) (fs := fs) (n := n) hm
    hfit h3 (.inr ⟨h5, exhausted_answers he⟩)
    (by rw [List.append_nil]; exact ahead_of_junky hj)
  refine ⟨reports evss.flatten, results_answers evss, ?_⟩
  rcases hA with ⟨fs2, _, _, h5'⟩ | ⟨more, h4⟩
  · exfalso
    have h6 := junky_length h5'
    rw [List.append_nil] at h6
    have h7 := hist_rest h3 (exhausted_answers he)
    simp only [List.length_nil] at h7
    omega
  · exact ⟨more, h4⟩

/-- **C60**, without sync characters in between nothing is delayed and there are no errors at all. -/
theorem c60_vec_no_sync (hM : D.maxPayloadLen + 8 ≤ M) (hm : D.maxPayloadLen ≤ 65535)
    (items : List (Bytes × UInt8 × UInt8 × Bytes)) (last : Bytes)
    (hsep : ∀ x ∈ items, NoSync x.1) (hlast : NoSync last)
    (hp : ∀ x ∈ items, x.2.2.2.length ≤ D.maxPayloadLen)
    (h : List (Bytes × Nat)) (hfed : fedBytes h = cleanStream items last)
    (hc : ∀ x ∈ h, x.1.length + D.maxPayloadLen + 8 ≤ M / 2)
    {rss q} (hq : session M D (vecParser M) h = some (.ok (rss, q))) (he : Exhausted rss) :
    results rss = items.map (fun x => D.matchPacket x.2.1 x.2.2.1 x.2.2.2) ∧
      q.buf.bytes = if last.getLast? = some 0xb5 then [0xb5] else [] := by
  obtain ⟨h1, h2⟩ := c05_vec_reference_decoder hM h hc hq he
  rw [hfed, decode_noSync hsep hlast hp hm] at h1 h2
  exact ⟨by rw [h1, List.map_map]; rfl, h2⟩

/-- A stream with a false header (`b5 62 00 00 01 00`) and a lone `b5` before two frames. -/
example : Junky 1 0
    ([0xb5, 0x62, 0, 0, 1, 0, 0xb5] ++ frame 5 1 [7] ++ ([] ++ frame 5 0 [] ++ [])) [(5, 1, [7]), (5, 0, [])] := by
  refine .cons (by decide) ?_ (.cons (by decide) ?_ (.nil (by decide)))
  · intro k hk c i p rest hp he
    have hk' : k = 0 ∨ k ≠ 0 := by omega
    rcases hk' with rfl | hk'
    · rw [frame_eq_header] at he
      simp only [List.drop_zero, header, List.cons_append, List.cons.injEq, true_and] at he
      obtain ⟨rfl, rfl, h1, h2, h3⟩ := he
      have hl : p.length = 1 := by
        have h4 : p.length ≤ 1 := hp
        rcases Nat.lt_or_ge p.length 1 with h | h
        · have : p.length = 0 := by omega
          rw [this] at h1
          exact absurd h1 (by decide)
        · omega
      obtain ⟨x, rfl⟩ := List.length_eq_one_iff.mp hl
      simp only [List.cons_append, List.nil_append, List.cons.injEq] at h3
      obtain ⟨rfl, h3⟩ := h3
      have h4 : some 0xb5 = some (ckA (body 0 0 [181])) := congrArg List.head? h3
      exact absurd h4 (by decide)
    · have h1 := congrArg (List.take 2) he
      have h2 : (frame c i p ++ rest).take 2 = [0xb5, 0x62] := rfl
      rw [h2] at h1
      have : ∀ k < 7, k ≠ 0 → (([0xb5, 0x62, 0, 0, 1, 0, 0xb5] ++ frame 5 1 [7] ++
        ([] ++ frame 5 0 [] ++ [])).drop k).take 2 ≠ [0xb5, 0x62] := by decide
      exact this k hk hk' h1
  · intro k hk
    exact absurd hk (Nat.not_lt_zero _)

end Ublox.Props
