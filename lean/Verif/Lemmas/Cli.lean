import Verif.Model.Cli
import Verif.Spec.Cli
import Verif.Lemmas.Device
import Verif.Lemmas.Iter
import Verif.Lemmas.Junk

namespace Ublox
open Spec

theorem decode_bounded (maxLen : Nat) (s : Bytes) {c i : UInt8} {p : Bytes}
    (h : Ev.packet c i p ∈ (decode maxLen s).1) : p.length ≤ maxLen := by
  fun_induction decode maxLen s with
  | case1 => simp at h
  | case2 s c' i' lo hi tail hs _ a b after hd hc ih =>
    rcases List.mem_cons.mp h with h | h
    · injection h with _ _ h
      subst h
      have := scan_cand_le hs
      simp only [List.length_take]
      omega
    · exact ih h
  | case3 s c' i' lo hi tail hs _ a b after hd hc ih =>
    rcases List.mem_cons.mp h with h | h
    · cases h
    · exact ih h
  | case4 => simp at h

/-- What `collect` returns for an iterator that yields `items`. -/
theorem collect_of_iterate {M : Nat} {k : IterKind} {items : List IterItem} {st st' : IterState}
    (h : iterate (k.next M) (items.length + 1) st = .ok (items.map some ++ [none], st')) :
    Cli.collect M k st = some (.ok items) := by
  induction items generalizing st with
  | nil =>
    simp only [List.length_nil, List.map_nil, List.nil_append] at h
    rw [iterate] at h
    cases hn : k.next M st with
    | error p => rw [hn] at h; exact absurd h (by intro h; cases h)
    | ok r =>
      obtain ⟨a, s⟩ := r
      rw [hn, Except.ok_bind] at h
      simp only [iterate, Except.ok_bind] at h
      have h' : (Except.ok ([a], s) : R _) = .ok ([none], st') := h
      simp only [Except.ok.injEq, Prod.mk.injEq, List.cons.injEq, and_true] at h'
      obtain ⟨rfl, rfl⟩ := h'
      rw [Cli.collect.eq_def, hn]
  | cons x items ih =>
    simp only [List.length_cons, List.map_cons, List.cons_append] at h
    rw [iterate] at h
    cases hn : k.next M st with
    | error p => rw [hn] at h; exact absurd h (by intro h; cases h)
    | ok r =>
      obtain ⟨a, s⟩ := r
      rw [hn, Except.ok_bind] at h
      simp only at h
      cases hr : iterate (k.next M) (items.length + 1) s with
      | error p => rw [hr] at h; exact absurd h (by intro h; cases h)
      | ok r =>
        obtain ⟨as, s2⟩ := r
        rw [hr, Except.ok_bind] at h
        have h' : (Except.ok (a :: as, s2) : R _) =
          .ok (some x :: (items.map some ++ [none]), st') := h
        simp only [Except.ok.injEq, Prod.mk.injEq, List.cons.injEq] at h'
        obtain ⟨⟨rfl, rfl⟩, rfl⟩ := h'
        have := ih hr
        rw [Cli.collect.eq_def, hn]
        simp only [this]
        rfl

/-- The first pause among the first `n` reads. -/
theorem first_pause {E : Type} (port : Port E) (i n : Nat)
    (h : ∀ j < n, Some1240 (port (i + j)) ∨ Quiet (port (i + j))) :
    (∀ j < n, Some1240 (port (i + j))) ∨
      ∃ k < n, (∀ j < k, Some1240 (port (i + j))) ∧ Quiet (port (i + k)) := by
  induction n with
  | zero => exact .inl (by simp)
  | succ n ih =>
    rcases ih (fun j hj => h j (by omega)) with h1 | ⟨k, hk, h1, h2⟩
    · rcases h n (by omega) with h2 | h2
      · refine .inl fun j hj => ?_
        rcases Nat.lt_succ_iff_lt_or_eq.mp hj with hj | rfl
        · exact h1 j hj
        · exact h2
      · exact .inr ⟨n, by omega, h1, h2⟩
    · exact .inr ⟨k, by omega, h1, h2⟩

end Ublox
