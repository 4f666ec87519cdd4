import Verif.Lemmas.Buffer
import Verif.Spec.Queue

/-!
# C14: `FixedLinearBuffer` is a faithful bounded byte queue
-/

namespace Ublox.Props

open Spec

variable {M : Nat}

/-- What a client sees when it performs an operation (client code): reading operations that panic
leave the buffer as it is (they borrow it immutably); a panic of a modifying operation would be an
error of the whole run. -/
def flbStep (f : FixedLinearBuffer M) : QOp → R (QOut × FixedLinearBuffer M)
  | .clear => .ok (.unit, f.clear)
  | .extend xs => do
    let (f, n) ← f.extendFromSlice xs
    return (.num n, f)
  | .drain n => do
    let f ← f.drain n
    return (.unit, f)
  | .find v => do
    let p ← f.find v
    return (.pos p, f)
  | .range s e =>
    match f.range s e with
    | .ok xs => .ok (.bytes xs, f)
    | .error _ => .ok (.panic, f)
  | .index i =>
    match f.index i with
    | .ok b => .ok (.byte b, f)
    | .error _ => .ok (.panic, f)
  | .len => .ok (.num (UnderlyingBuffer.len f), f)
  | .capacity => .ok (.num (UnderlyingBuffer.maxCapacity f), f)

/-- A sequence of operations (client code). -/
def flbRun (f : FixedLinearBuffer M) : List QOp → R (List QOut × FixedLinearBuffer M)
  | [] => .ok ([], f)
  | op :: ops => do
    let (o, f) ← flbStep f op
    let (os, f) ← flbRun f ops
    return (o :: os, f)

theorem flbStep_spec (f : FixedLinearBuffer M) (op : QOp) (hl : f.len ≤ f.buffer.length)
    (hM : f.buffer.length ≤ M / 2) :
    ∃ out f', flbStep f op = .ok (out, f') ∧ f'.len ≤ f'.buffer.length ∧
      f'.buffer.length = f.buffer.length ∧
      QStep f.buffer.length (f.buffer.take f.len) op out (f'.buffer.take f'.len) := by
  have hi : LawfulBuffer.Inv M f := ⟨hl, hM⟩
  have hlen : (f.buffer.take f.len).length = f.len := by simp [hl]
  cases op with
  | clear =>
    refine ⟨.unit, f.clear, rfl, Nat.zero_le _, rfl, ?_⟩
    simpa [FixedLinearBuffer.clear] using QStep.clear
  | extend xs =>
    obtain ⟨f', h1, h2, h3, h4⟩ := LawfulBuffer.extend_eq (M := M) (xs := xs) hi trivial
    change f.extendFromSlice xs = _ at h1
    change f'.buffer.length = f.buffer.length at h4
    have h3' : f'.buffer.take f'.len = f.buffer.take f.len ++ xs.take (f.buffer.length - f.len) := h3
    refine ⟨.num (xs.length - min xs.length (f.buffer.length - f.len)), f', ?_, h2.1, h4, ?_⟩
    · simp only [flbStep, h1]; rfl
    · rw [h3']
      have h5 : xs.length - min xs.length (f.buffer.length - f.len) =
          (xs.drop (f.buffer.length - f.len)).length := by simp; omega
      rw [h5]
      refine .extend _ _ (List.take_append_drop _ _).symm ?_ ?_
      · simp; omega
      · by_cases h6 : xs.length ≤ f.buffer.length - f.len
        · left; exact List.drop_of_length_le h6
        · right; simp; omega
  | drain n =>
    by_cases hn : n ≤ f.len
    · obtain ⟨f', h1, h2, h3, h4⟩ := LawfulBuffer.drain_eq (M := M) (n := n) hi (by
        show n ≤ (f.buffer.take f.len).length
        omega)
      change f.drain n = _ at h1
      refine ⟨.unit, f', ?_, h2.1, h4, ?_⟩
      · simp only [flbStep, h1]; rfl
      · have h3' : f'.buffer.take f'.len = (f.buffer.take f.len).drop n := h3
        rw [h3']
        exact .drain (by omega)
    · refine ⟨.unit, { f with len := 0 }, ?_, Nat.zero_le _, rfl, ?_⟩
      · simp only [flbStep, FixedLinearBuffer.drain]
        rw [if_pos (by omega)]
        rfl
      · exact .drainAll (by omega)
  | find v =>
    have h1 := LawfulBuffer.find_eq (M := M) (v := v) hi
    change f.find v = .ok ((f.buffer.take f.len).findIdx? (· == v)) at h1
    refine ⟨.pos ((f.buffer.take f.len).findIdx? (· == v)), f, ?_, hl, rfl, ?_⟩
    · simp only [flbStep, h1]; rfl
    · generalize f.buffer.take f.len = q
      cases h : q.findIdx? (· == v) with
      | none =>
        refine .findNone ?_
        rw [List.findIdx?_eq_none_iff] at h
        intro hv
        simpa using h v hv
      | some i =>
        rw [List.findIdx?_eq_some_iff_getElem] at h
        obtain ⟨h2, h3, h4⟩ := h
        refine .findSome ⟨?_, ?_⟩
        · rw [List.getElem?_eq_getElem h2]; simpa using h3
        · intro j hj hv
          have := h4 j hj
          rw [List.getElem?_eq_getElem (by omega)] at hv
          simp_all
  | range s e =>
    by_cases h : s ≤ e ∧ e ≤ f.len
    · have h1 := LawfulBuffer.range_eq (M := M) (b := f) hi h.1 (e := e) (by
        show e ≤ (f.buffer.take f.len).length; omega)
      change f.range s e = .ok (((f.buffer.take f.len).drop s).take (e - s)) at h1
      refine ⟨.bytes (((f.buffer.take f.len).drop s).take (e - s)), f, by simp only [flbStep, h1],
        hl, rfl, ?_⟩
      generalize hq : f.buffer.take f.len = q at *
      refine .range (pre := q.take s) (post := (q.drop s).drop (e - s)) ?_ ?_ ?_
      · rw [List.append_assoc, List.take_append_drop, List.take_append_drop]
      · simp; omega
      · simp; omega
    · refine ⟨.panic, f, ?_, hl, rfl, .rangePanic (by omega)⟩
      simp only [flbStep, FixedLinearBuffer.range]
      by_cases h2 : e > f.len
      · rw [if_pos h2]
      · rw [if_neg h2]
        unfold sliceRange
        rw [if_neg (by omega)]
  | index i =>
    by_cases h : i < f.buffer.length
    · refine ⟨.byte f.buffer[i], f, ?_, hl, rfl, ?_⟩
      · simp only [flbStep, FixedLinearBuffer.index, getByte_ok h]
      · by_cases h2 : i < f.len
        · refine .index ?_
          rw [List.getElem?_take_of_lt h2, List.getElem?_eq_getElem h]
        · exact .indexBeyond (by omega) h
    · refine ⟨.panic, f, ?_, hl, rfl, .indexPanic (by omega)⟩
      simp only [flbStep, FixedLinearBuffer.index, getByte]
      rw [List.getElem?_eq_none (by omega)]
  | len =>
    refine ⟨.num f.len, f, rfl, hl, rfl, ?_⟩
    have := QStep.len (cap := f.buffer.length) (q := f.buffer.take f.len)
    rwa [hlen] at this
  | capacity => exact ⟨.num f.buffer.length, f, rfl, hl, rfl, .capacity⟩

/-- **C14** Every sequence of operations on a fresh `FixedLinearBuffer` over any backing slice shows
the client what the bounded queue shows; in particular no modifying operation panics, and the
unsafe memory move stays inside the backing slice (otherwise the model yields
`undefinedBehaviour`). -/
theorem c14_flb_is_bounded_queue (backing : Bytes) (hb : backing.length ≤ M / 2) (ops : List QOp) :
    ∃ outs f, flbRun (FixedLinearBuffer.new backing : FixedLinearBuffer M) ops = .ok (outs, f) ∧
      QRun backing.length [] ops outs (f.buffer.take f.len) := by
  have key : ∀ (ops : List QOp) (f : FixedLinearBuffer M), f.len ≤ f.buffer.length →
      f.buffer.length ≤ M / 2 → ∃ outs f', flbRun f ops = .ok (outs, f') ∧
        QRun f.buffer.length (f.buffer.take f.len) ops outs (f'.buffer.take f'.len) := by
    intro ops
    induction ops with
    | nil => exact fun f _ _ => ⟨[], f, rfl, .nil _⟩
    | cons op ops ih =>
      intro f h1 h2
      obtain ⟨out, f1, g1, g2, g3, g4⟩ := flbStep_spec f op h1 h2
      obtain ⟨outs, f2, k1, k2⟩ := ih f1 g2 (by omega)
      refine ⟨out :: outs, f2, ?_, ?_⟩
      · simp only [flbRun, g1, Except.ok_bind, k1]; rfl
      · rw [g3] at k2; exact .cons g4 k2
  simpa [FixedLinearBuffer.new] using key ops (.new backing) (Nat.zero_le _) hb

/-- What the queue shows is determined, except for `index` between length and capacity: so the
theorem above is an equality of observations. -/
theorem c14_queue_deterministic {cap : Nat} {q : Bytes} {op : QOp} {o o' : QOut} {q' q'' : Bytes}
    (hop : ∀ i, op = .index i → i < q.length ∨ cap ≤ i) (hq : q.length ≤ cap)
    (h : QStep cap q op o q') (h' : QStep cap q op o' q'') : o = o' ∧ q' = q'' := by
  cases h with
  | clear => cases h'; exact ⟨rfl, rfl⟩
  | @extend xs fit out h1 h2 h3 =>
    cases h' with
    | extend fit' out' h1' h2' h3' =>
      have hl : fit.length = fit'.length := by
        have e1 := congrArg List.length h1
        have e2 := congrArg List.length h1'
        simp only [List.length_append] at *
        rcases h3 with rfl | h3 <;> rcases h3' with rfl | h3' <;> simp at * <;> omega
      obtain ⟨rfl, rfl⟩ := List.append_inj (h1.symm.trans h1') hl
      exact ⟨rfl, rfl⟩
  | drain => cases h' with
    | drain => exact ⟨rfl, rfl⟩
    | drainAll => omega
  | drainAll => cases h' with
    | drain => omega
    | drainAll => exact ⟨rfl, rfl⟩
  | @findSome v i h1 => cases h' with
    | @findSome _ j h2 =>
      have : i = j := by
        rcases Nat.lt_trichotomy i j with h | h | h
        · exact absurd h1.1 (h2.2 i h)
        · exact h
        · exact absurd h2.1 (h1.2 j h)
      subst this; exact ⟨rfl, rfl⟩
    | findNone h2 => exact absurd (List.mem_of_getElem? h1.1) h2
  | findNone h1 => cases h' with
    | findSome h2 => exact absurd (List.mem_of_getElem? h2.1) h1
    | findNone => exact ⟨rfl, rfl⟩
  | @range s e pre xs post h1 h2 h3 => cases h' with
    | @range _ _ pre' xs' post' h1' h2' h3' =>
      subst h1
      rw [List.append_assoc, List.append_assoc] at h1'
      obtain ⟨_, h4⟩ := List.append_inj h1' (by omega)
      obtain ⟨h5, _⟩ := List.append_inj h4 (by omega)
      exact ⟨by rw [h5], rfl⟩
    | rangePanic h4 =>
      have := congrArg List.length h1
      simp only [List.length_append] at this
      omega
  | rangePanic h1 => cases h' with
    | rangePanic => exact ⟨rfl, rfl⟩
    | range h2 h3 h4 =>
      have := congrArg List.length h2
      simp only [List.length_append] at this
      omega
  | @index i b h1 =>
    have := (List.getElem?_eq_some_iff.mp h1).1
    cases h' with
    | index h2 => rw [h1] at h2; cases h2; exact ⟨rfl, rfl⟩
    | indexBeyond => omega
    | indexPanic => omega
  | indexBeyond => have := hop _ rfl; omega
  | indexPanic => cases h' with
    | index h2 => have := (List.getElem?_eq_some_iff.mp h2).1; omega
    | indexBeyond => omega
    | indexPanic => exact ⟨rfl, rfl⟩
  | len => cases h'; exact ⟨rfl, rfl⟩
  | capacity => cases h'; exact ⟨rfl, rfl⟩

/-- A concrete run: capacity 3, five bytes offered, two rejected. -/
example : flbRun (FixedLinearBuffer.new [9, 9, 9] : FixedLinearBuffer 65535)
    [.extend [1, 2, 3, 4, 5], .drain 1, .find 3, .range 0 2, .range 1 3, .index 7, .len] =
    .ok ([.num 2, .unit, .pos (some 1), .bytes [2, 3], .panic, .panic, .num 2],
      ⟨[2, 3, 3], 2⟩) := rfl

end Ublox.Props
