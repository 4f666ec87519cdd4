import Verif.Lemmas.Junk
import Verif.Lemmas.Device

/-!
# Decoding a stream with junk
-/

namespace Ublox
open Spec

/-- With enough room there is a run to the end. -/
theorem run_exists {maxLen cap : Nat} (hc : maxLen + 7 ≤ cap) (s : Bytes) :
    ∃ evs r, Run maxLen cap s evs r ∧ none ∈ evs := by
  generalize hn : s.length = n
  induction n using Nat.strongRecOn generalizing s with
  | ind n ih =>
    subst hn
    have next : ∀ {ev s'}, Step maxLen cap s (some ev) s' →
        ∃ evs r, Run maxLen cap s evs r ∧ none ∈ evs := by
      intro ev s' h
      have hl := step_length h
      simp only [Option.isSome_some, if_true] at hl
      obtain ⟨evs, r, h1, h2⟩ := ih s'.length (by omega) s' rfl
      exact ⟨_, _, .cons h h1, List.mem_cons_of_mem _ h2⟩
    rcases decode_cases maxLen s with
      ⟨r, h0⟩ | ⟨c, i, lo, hi, tail, h0, h1 | ⟨x, y, after, h1, ⟨h2, h3⟩ | h2⟩⟩
    · exact ⟨[none], _, .cons (.wait h0) (.nil _), by simp⟩
    · refine ⟨[none], _, .cons (.incomplete h0 h1 ?_) (.nil _), by simp⟩
      have := scan_cand_le h0
      simp only [header, List.length_cons]
      omega
    · exact next (.packet h0 h1 h2 h3)
    · exact next (.bad h0 h1 h2)

/-- The reference decoder finds all frames of a stream with junk, when enough bytes follow. -/
theorem decode_junky {maxLen : Nat} (hm : maxLen ≤ 65535) {s : Bytes}
    {fs : List (UInt8 × UInt8 × Bytes)} (hj : Junky maxLen (maxLen + 8) s fs) :
    ∃ more, packets (decode maxLen s).1 = fs ++ more := by
  obtain ⟨evs, r, h1, h2⟩ := run_exists (cap := maxLen + 7) (Nat.le_refl _) s
  obtain ⟨h3, h4⟩ := run_exhausted_decode (fits_of_le (Nat.le_refl _) s) h1 h2
  have hA := run_ahead (t := []) (out := []) (fs := fs) (n := maxLen + 8) hm
    (fun f hf => by have := junky_payload hj f hf; omega) h1
    (by rw [List.append_nil]; exact ahead_of_junky hj)
  rw [h3]
  rcases hA with ⟨fs2, _, _, h5⟩ | ⟨more, h6⟩
  · exfalso
    have h6 := junky_length h5
    have h7 := (decode_rest maxLen s).2
    rw [h3] at h7
    simp only [List.append_nil] at h6 h7
    omega
  · exact ⟨more, h6⟩

end Ublox
