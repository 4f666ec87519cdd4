import Verif.Lemmas.Api
import Verif.Lemmas.Sim
import Verif.Spec.OwnBuffer
import Verif.Props.ParserSafety

/-!
# C86: buffers of one's own
-/

namespace Ublox.Props

open Spec Ublox.Parser
open UnderlyingBuffer (len maxCapacity)

variable {P : Type} {M : Nat} {D : Dispatch P}

/-- A documented buffer type that never holds more than its capacity has the properties that the
lemmas about the parser use. -/
@[reducible] def ownLawful {T : Type} [UnderlyingBuffer T] {Valid : T → Prop} {holds : T → Bytes}
    (hd : Documented T Valid holds) (hx : NeverMore T Valid holds) (M : Nat) : LawfulBuffer M T where
  Inv b := Valid b ∧ maxCapacity b ≤ M / 2
  contents := holds
  Room _ := True
  room_mono _ h := h
  len_eq h := hd.len h.1
  len_le_cap {b} h := by rw [hd.len h.1]; exact hx b h.1
  cap_le h := Nat.le_trans h.2 (Nat.div_le_self _ _)
  len_le {b} h := by rw [hd.len h.1]; exact Nat.le_trans (hx b h.1) h.2
  index_eq h hi := hd.index h.1 (List.getElem?_eq_getElem hi)
  range_eq {b s e} h hs he := by
    have h1 := hd.range (pre := (holds b).take s) (xs := ((holds b).drop s).take (e - s))
      (post := ((holds b).drop s).drop (e - s)) h.1 (by
        rw [List.append_assoc, List.take_append_drop, List.take_append_drop])
    simp only [List.length_take, List.length_drop] at h1
    rwa [Nat.min_eq_left (by omega), Nat.min_eq_left (by omega), Nat.add_sub_cancel' hs] at h1
  clear_eq {b} h := by
    obtain ⟨h1, h2, h3⟩ := hd.clear h.1
    exact ⟨⟨h1, h3 ▸ h.2⟩, h2, h3⟩
  find_eq {b v} h := by
    obtain ⟨r, h1, h2⟩ := hd.find (v := v) h.1
    rw [h1]
    congr 1
    cases r with
    | none =>
      symm
      rw [List.findIdx?_eq_none_iff]
      intro x hx
      simp only [beq_eq_false_iff_ne]
      rintro rfl
      exact h2 hx
    | some i =>
      symm
      rw [List.findIdx?_eq_some_iff_getElem]
      obtain ⟨hlt, he⟩ := List.getElem?_eq_some_iff.mp h2.1
      refine ⟨hlt, by simp [he], fun j hj => ?_⟩
      have := h2.2 j hj
      rw [List.getElem?_eq_getElem (by omega)] at this
      simpa using this
  drain_eq {b n} h hn := by
    obtain ⟨b', h1, h2, h3, h4⟩ := hd.drain (pre := (holds b).take n) (post := (holds b).drop n) h.1
      (List.take_append_drop _ _).symm
    rw [List.length_take, Nat.min_eq_left hn] at h1
    exact ⟨b', h1, ⟨h2, h4 ▸ h.2⟩, h3, h4⟩
  extend_eq {b xs} h _ := by
    obtain ⟨b', fit, out, h1, h2, h3, h4, h5, h6⟩ := hd.extend (xs := xs) h.1
    have h7 := hx b' h3
    rw [h4, h5, List.length_append] at h7
    rw [h4, List.length_append] at h6
    have h8 := hd.len h.1
    have h9 : xs.length = fit.length + out.length := by rw [h1, List.length_append]
    have hfit : fit.length = min xs.length (maxCapacity b - len b) := by
      rcases h6 with rfl | h6
      · simp only [List.length_nil] at h9; omega
      · omega
    refine ⟨b', ?_, ⟨h3, h5 ▸ h.2⟩, ?_, h5⟩
    · rw [h2]; congr 2; omega
    · rw [h4]
      congr 1
      have h10 : fit = xs.take fit.length := by rw [h1]; simp
      rw [h10, List.take_eq_take_iff, hfit]
      omega

/-- **C86** for buffers that never hold more than `max_capacity`: from any state of the buffer and
whatever is fed in whatever way, a parser over it does not panic, gives the answers of a parser over a
`FixedLinearBuffer` with that capacity and those bytes, and holds the same bytes afterwards.  What is
missing for the full claim are buffers that hold more, for which it is false:
`c86_roomy_panics`. -/
theorem c86_like_fixed_partial {T : Type} [UnderlyingBuffer T] {Valid : T → Prop}
    {holds : T → Bytes} (hd : Documented T Valid holds) (hx : NeverMore T Valid holds)
    (hM : D.maxPayloadLen + 8 ≤ M) {p : Parser T} (hv : Valid p.buf)
    {q : Parser (FixedLinearBuffer M)} (hq : q.buf.len ≤ q.buf.buffer.length)
    (hc : maxCapacity p.buf = q.buf.buffer.length) (hb : holds p.buf = flbBytes q)
    (hl : q.buf.buffer.length ≤ M / 2) {h : List (Bytes × Nat)} (hs : Slices M h) :
    ∃ rss p' q', session M D p h = some (.ok (rss, p')) ∧ session M D q h = some (.ok (rss, q')) ∧
      Valid p'.buf ∧ maxCapacity p'.buf = maxCapacity p.buf ∧ holds p'.buf = flbBytes q' := by
  letI := ownLawful hd hx M
  have hi : LawfulBuffer.Inv M p.buf := ⟨hv, hc ▸ hl⟩
  have hroom : SessionRoom M D p h := by
    intro h1 c n h2 he rs q' _
    refine ⟨hs (c, n) ?_, trivial⟩
    rw [he]; simp
  obtain ⟨evss, p', h1, h2, h3, h4⟩ := session_eq (D := D) hi hroom hM
  obtain ⟨q', g1, g2⟩ := session_same (U := FixedLinearBuffer M) (q := q)
    ⟨hi, (⟨hq, hl⟩ : _ ∧ _), hb, hc⟩ hroom (fun _ => trivial) h1
  exact ⟨_, p', q', h1, g1, h2.1, h3, g2.contents⟩

/-- **C86** for a buffer that is empty at first. -/
theorem c86_new_partial {T : Type} [UnderlyingBuffer T] {Valid : T → Prop}
    {holds : T → Bytes} (hd : Documented T Valid holds) (hx : NeverMore T Valid holds)
    (hM : D.maxPayloadLen + 8 ≤ M) {b : T} (hv : Valid b) (h0 : holds b = [])
    {backing : Bytes} (hc : maxCapacity b = backing.length) (hl : backing.length ≤ M / 2)
    {h : List (Bytes × Nat)} (hs : Slices M h) :
    ∃ rss p' q', session M D (Parser.new b) h = some (.ok (rss, p')) ∧
      session M D (flbParser M backing) h = some (.ok (rss, q')) ∧ p'.bufferLen = q'.bufferLen := by
  obtain ⟨rss, p', q', h1, h2, h3, h4, h5⟩ := c86_like_fixed_partial (D := D) hd hx hM
    (p := Parser.new b) hv (q := flbParser M backing) (Nat.zero_le _) hc
    (by rw [show (Parser.new b).buf = b from rfl, h0]; rfl) hl hs
  obtain ⟨_, q2, g1, g2, g3, _⟩ := flb_session (D := D) hl hs hM
  rw [h2] at g1
  simp only [Option.some.injEq, Except.ok.injEq, Prod.mk.injEq] at g1
  obtain ⟨_, rfl⟩ := g1
  refine ⟨rss, p', q', h1, h2, ?_⟩
  show len p'.buf = q'.buf.len
  rw [hd.len h3, h5]
  show (q'.buf.buffer.take q'.buf.len).length = _
  rw [List.length_take, Nat.min_eq_left g2]

/-! ## Buffers with and without the additional property -/

/-- A `Vec<u8>` that names a capacity (not part of `/repo`); `strict`: it keeps to it. -/
structure SoftVec (strict : Bool) where
  bytes : Bytes
  limit : Nat
  deriving DecidableEq

/-- What a user would write for it. -/
instance (strict : Bool) : UnderlyingBuffer (SoftVec strict) where
  clear v := { v with bytes := [] }
  len v := v.bytes.length
  maxCapacity v := v.limit
  extendFromSlice v xs :=
    let k := if strict then v.limit - v.bytes.length else xs.length
    .ok ({ v with bytes := v.bytes ++ xs.take k }, (xs.drop k).length)
  drain v n := .ok { v with bytes := v.bytes.drop n }
  index v i := getByte v.bytes i
  range v s e := sliceRange v.bytes s e
  find v x := .ok (v.bytes.findIdx? (· == x))

/-- The states that occur. -/
def SoftVec.Valid {strict : Bool} (v : SoftVec strict) : Prop :=
  strict = true → v.bytes.length ≤ v.limit

theorem softVec_documented (strict : Bool) :
    Documented (SoftVec strict) SoftVec.Valid SoftVec.bytes where
  len _ := rfl
  index {b i x} _ h := by
    obtain ⟨h1, h2⟩ := List.getElem?_eq_some_iff.mp h
    exact (getByte_ok h1).trans (by rw [h2])
  range {b pre xs post} _ h := by
    show sliceRange b.bytes _ _ = _
    rw [sliceRange_ok (by omega) (by rw [h]; simp), h]
    simp
  clear _ := ⟨fun _ => Nat.zero_le _, rfl, rfl⟩
  find {b v} _ := by
    refine ⟨_, rfl, ?_⟩
    cases h : b.bytes.findIdx? (· == v) with
    | none =>
      rw [List.findIdx?_eq_none_iff] at h
      intro hv
      simpa using h v hv
    | some i =>
      rw [List.findIdx?_eq_some_iff_getElem] at h
      obtain ⟨h2, h3, h4⟩ := h
      refine ⟨?_, ?_⟩
      · rw [List.getElem?_eq_getElem h2]; simpa using h3
      · intro j hj hv
        have := h4 j hj
        rw [List.getElem?_eq_getElem (by omega)] at hv
        simp_all
  drain {b pre post} hv h := by
    refine ⟨_, rfl, fun hs => ?_, ?_, rfl⟩
    · have := hv hs
      simp only [List.length_drop]
      omega
    · simp [h]
  extend {b xs} hv := by
    refine ⟨_, _, _, (List.take_append_drop
      (if strict then b.limit - b.bytes.length else xs.length) xs).symm, rfl, ?_, rfl, rfl, ?_⟩
    · intro hs
      have := hv hs
      simp only [hs, if_true, List.length_append, List.length_take]
      omega
    · cases strict with
      | false => left; simp
      | true =>
        have := hv rfl
        simp only [if_true, List.length_append, List.length_take]
        by_cases hx : xs.length ≤ b.limit - b.bytes.length
        · left; exact List.drop_of_length_le hx
        · right
          show b.limit ≤ _
          omega

theorem softVec_never_more : NeverMore (SoftVec true) SoftVec.Valid SoftVec.bytes :=
  fun _ h => h rfl

/-- The hypotheses are met by `FixedLinearBuffer` itself. -/
theorem flb_documented (M : Nat) : Documented (FixedLinearBuffer M)
    (fun f => f.len ≤ f.buffer.length ∧ f.buffer.length ≤ M / 2) (fun f => f.buffer.take f.len) where
  len h := LawfulBuffer.len_eq (M := M) h
  index {b i x} h hx := by
    obtain ⟨h1, h2⟩ := List.getElem?_eq_some_iff.mp hx
    exact (LawfulBuffer.index_eq (M := M) h h1).trans (by rw [← h2]; rfl)
  range {b pre xs post} h hb := by
    rw [LawfulBuffer.range_eq (M := M) h (by omega) (by
      show _ ≤ (b.buffer.take b.len).length
      rw [hb]; simp)]
    show Except.ok (((b.buffer.take b.len).drop _).take _) = _
    rw [hb]
    simp
  clear {b} h := LawfulBuffer.clear_eq (T := FixedLinearBuffer M) (M := M) (b := b) h
  find {b v} h := by
    refine ⟨_, LawfulBuffer.find_eq (M := M) h, ?_⟩
    change match (b.buffer.take b.len).findIdx? (· == v) with
      | some i => IsFirst (b.buffer.take b.len) v i
      | none => v ∉ b.buffer.take b.len
    generalize b.buffer.take b.len = q
    cases h : q.findIdx? (· == v) with
    | none =>
      rw [List.findIdx?_eq_none_iff] at h
      intro hv
      simpa using h v hv
    | some i =>
      rw [List.findIdx?_eq_some_iff_getElem] at h
      obtain ⟨h2, h3, h4⟩ := h
      refine ⟨?_, ?_⟩
      · rw [List.getElem?_eq_getElem h2]; simpa using h3
      · intro j hj hv
        have := h4 j hj
        rw [List.getElem?_eq_getElem (by omega)] at hv
        simp_all
  drain {b pre post} h hb := by
    obtain ⟨b', h1, h2, h3, h4⟩ := LawfulBuffer.drain_eq (T := FixedLinearBuffer M) (M := M) (b := b)
      (n := pre.length) h (by
      show _ ≤ (b.buffer.take b.len).length
      rw [hb]; simp)
    refine ⟨b', h1, h2, ?_, h4⟩
    have h3' : b'.buffer.take b'.len = (b.buffer.take b.len).drop pre.length := h3
    rw [h3', hb]
    simp
  extend {b xs} h := by
    obtain ⟨b', h1, h2, h3, h4⟩ := LawfulBuffer.extend_eq (T := FixedLinearBuffer M) (M := M) (b := b)
      (xs := xs) h trivial
    have hlen := LawfulBuffer.len_eq (T := FixedLinearBuffer M) (M := M) (b := b) h
    refine ⟨b', _, _, (List.take_append_drop (maxCapacity b - len b) xs).symm, ?_, h2, h3, h4, ?_⟩
    · rw [h1]; congr 2; simp only [List.length_drop]; omega
    · by_cases hx : xs.length ≤ maxCapacity b - len b
      · left; exact List.drop_of_length_le hx
      · right
        have h3' : b'.buffer.take b'.len = b.buffer.take b.len ++ xs.take (maxCapacity b - len b) := h3
        have hlen' : len b = (b.buffer.take b.len).length := hlen
        rw [h3', List.length_append, ← hlen', List.length_take]
        omega

example : ∃ rss p' q', session (2 ^ 16 - 1) rawDispatch (Parser.new (⟨[], 40⟩ : SoftVec true))
      [([0xb5, 0x62, 1], 3), ([2, 0, 0, 3, 10], 2)] = some (.ok (rss, p')) ∧
    session (2 ^ 16 - 1) rawDispatch (flbParser (2 ^ 16 - 1) (List.replicate 40 0))
      [([0xb5, 0x62, 1], 3), ([2, 0, 0, 3, 10], 2)] = some (.ok (rss, q')) ∧
    p'.bufferLen = q'.bufferLen :=
  c86_new_partial (softVec_documented true) softVec_never_more (by decide) (fun _ => Nat.zero_le _) rfl
    (by simp [maxCapacity]) (by simp) (by unfold Slices; decide)

/-- **C86** is false for buffers that hold more than `max_capacity` says, although the documentation
allows them: 14 bytes of a frame are fed to a parser over a `Vec` with the capacity 7, the iterator is
dropped, and with the next byte the subtraction `max_capacity() - (len() - off)` overflows. -/
theorem c86_roomy_panics :
    Documented (SoftVec false) SoftVec.Valid SoftVec.bytes ∧
    SoftVec.Valid (⟨[], 7⟩ : SoftVec false) ∧
    session 65535 rawDispatch (Parser.new (⟨[], 7⟩ : SoftVec false))
      [([0xb5, 0x62, 1, 2, 12, 0, 1, 2, 3, 4, 5, 6, 7, 8], 0), ([9, 10, 11, 12, 0, 0], 1)] =
      some (.error .underflow) := by
  refine ⟨softVec_documented false, fun h => by simp at h, ?_⟩
  have hc1 : Parser.consume 65535 (Parser.new (⟨[], 7⟩ : SoftVec false))
      [0xb5, 0x62, 1, 2, 12, 0, 1, 2, 3, 4, 5, 6, 7, 8] =
      .ok ⟨⟨⟨[], 7⟩, 0, [0xb5, 0x62, 1, 2, 12, 0, 1, 2, 3, 4, 5, 6, 7, 8], 0⟩⟩ := rfl
  have hc2 : Parser.consume 65535
      (⟨⟨[0xb5, 0x62, 1, 2, 12, 0, 1, 2, 3, 4, 5, 6, 7, 8], 7⟩⟩ : Parser (SoftVec false))
      [9, 10, 11, 12, 0, 0] = .ok ⟨⟨⟨[0xb5, 0x62, 1, 2, 12, 0, 1, 2, 3, 4, 5, 6, 7, 8], 7⟩, 0,
        [9, 10, 11, 12, 0, 0], 0⟩⟩ := rfl
  have hn : ParserIter.next 65535 rawDispatch (⟨⟨(⟨[0xb5, 0x62, 1, 2, 12, 0, 1, 2, 3, 4, 5, 6, 7, 8],
      7⟩ : SoftVec false), 0, [9, 10, 11, 12, 0, 0], 0⟩⟩) = some (.error .underflow) := by
    rw [ParserIter.next.eq_def]
    rfl
  have hd : (⟨⟨[], 7⟩, 0, [0xb5, 0x62, 1, 2, 12, 0, 1, 2, 3, 4, 5, 6, 7, 8], 0⟩ :
      DualBuffer (SoftVec false)).dropDual =
      .ok ⟨[0xb5, 0x62, 1, 2, 12, 0, 1, 2, 3, 4, 5, 6, 7, 8], 7⟩ := rfl
  simp only [session, feed, hc1, callNext, hd, hc2, hn]

end Ublox.Props
