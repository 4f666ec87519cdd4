import Verif.Props.Checksum
import Verif.Spec.Damage

/-!
# C82: which pairs of damaged bytes are detected
-/

namespace Ublox.Props

open Spec Parser
open UnderlyingBuffer (maxCapacity)

theorem ckA_replace {xs : Bytes} {k : Nat} (hk : k < xs.length) (v : UInt8) :
    ckA (xs.set k v) = ckA xs + (v - xs[k]) := by
  induction xs generalizing k with
  | nil => simp at hk
  | cons x xs ih =>
    cases k with
    | zero => simp only [List.set_cons_zero, ckA_cons, List.getElem_cons_zero]; grind
    | succ k =>
      simp only [List.set_cons_succ, ckA_cons, List.getElem_cons_succ]
      rw [ih (by simpa using hk)]
      grind

theorem ckB_replace {xs : Bytes} {k : Nat} (hk : k < xs.length) (v : UInt8) :
    ckB (xs.set k v) = ckB xs + UInt8.ofNat (xs.length - k) * (v - xs[k]) := by
  induction xs generalizing k with
  | nil => simp at hk
  | cons x xs ih =>
    cases k with
    | zero =>
      simp only [List.set_cons_zero, ckB_cons, List.getElem_cons_zero, List.length_cons,
        Nat.sub_zero, UInt8.ofNat_add]
      grind
    | succ k =>
      simp only [List.set_cons_succ, ckB_cons, List.getElem_cons_succ, List.length_cons,
        List.length_set]
      rw [ih (by simpa using hk), show xs.length + 1 - (k + 1) = xs.length - k by omega]
      grind

theorem cancel_iff (d : Nat) (x x' y y' : UInt8) :
    Cancel d x x' y y' ↔ (x' - x) + (y' - y) = 0 ∧ UInt8.ofNat d * (x' - x) = 0 := by
  have h1 : (x.toNat + y.toNat) % 256 = (x'.toNat + y'.toNat) % 256 ↔ x + y = x' + y' := by
    rw [← UInt8.toNat_inj, UInt8.toNat_add, UInt8.toNat_add]
  have h2 : d * x.toNat % 256 = d * x'.toNat % 256 ↔ UInt8.ofNat d * x = UInt8.ofNat d * x' := by
    rw [← UInt8.toNat_inj, UInt8.toNat_mul, UInt8.toNat_mul, UInt8.toNat_ofNat']
    simp [Nat.mod_mul_mod]
  rw [Cancel, h1, h2]
  constructor
  · rintro ⟨a, b⟩
    constructor <;> grind
  · rintro ⟨a, b⟩
    constructor <;> grind

/-- The two sums after two changes are the old ones exactly if the changes cancel. -/
theorem sums_kept_iff {xs : Bytes} {j k : Nat} (hjk : j < k) (hk : k < xs.length) (u v : UInt8) :
    (ckA ((xs.set j u).set k v) = ckA xs ∧ ckB ((xs.set j u).set k v) = ckB xs) ↔
      Cancel (k - j) xs[j] u xs[k] v := by
  have hk' : k < (xs.set j u).length := by simpa using hk
  have hg : (xs.set j u)[k] = xs[k] := by
    rw [List.getElem_set_ne (by omega)]
  rw [ckA_replace hk', ckB_replace hk', ckA_replace (by omega : j < xs.length),
    ckB_replace (by omega : j < xs.length), hg, List.length_set, cancel_iff,
    show xs.length - j = (xs.length - k) + (k - j) by omega, UInt8.ofNat_add]
  constructor
  · rintro ⟨a, b⟩
    constructor <;> grind
  · rintro ⟨a, b⟩
    constructor <;> grind

/-- How a frame looks like in which a byte of class, id or payload was replaced. -/
theorem set_body {c i : UInt8} {payload : Bytes} {k : Nat} (hk : DataPos payload.length k)
    (v : UInt8) : ∃ c' i' payload', (body c i payload).set (k - 2) v = body c' i' payload' ∧
      payload'.length = payload.length := by
  rcases hk with rfl | rfl | ⟨h6, _⟩
  · exact ⟨v, i, payload, rfl, rfl⟩
  · exact ⟨c, v, payload, rfl, rfl⟩
  · refine ⟨c, i, payload.set (k - 6) v, ?_, by simp⟩
    obtain ⟨m, rfl⟩ : ∃ m, k = m + 6 := ⟨k - 6, by omega⟩
    have e : m + 6 - 2 = m + 4 := by omega
    rw [e]
    simp [body]

theorem get_data {c i : UInt8} {payload : Bytes} {k : Nat} (hk : DataPos payload.length k) :
    ∃ (h : k - 2 < (body c i payload).length) (h' : k < (frame c i payload).length),
      (frame c i payload)[k] = (body c i payload)[k - 2] := by
  have hb : (body c i payload).length = payload.length + 4 := by simp [body]
  have hlen : (frame c i payload).length = payload.length + 8 := by simp [frame, body]
  have h2 : 2 ≤ k ∧ k < payload.length + 6 := by
    rcases hk with rfl | rfl | h <;> omega
  refine ⟨by omega, by omega, ?_⟩
  obtain ⟨m, rfl⟩ : ∃ m, k = m + 2 := ⟨k - 2, by omega⟩
  simp only [frame, List.getElem_cons_succ, Nat.add_sub_cancel]
  exact List.getElem_append_left (by omega)

theorem set_data {ck xs : Bytes} {n k : Nat} (hx : xs.length = n + 4) (hk : DataPos n k)
    (v : UInt8) :
    (0xb5 :: 0x62 :: (xs ++ ck) : Bytes).set k v = 0xb5 :: 0x62 :: (xs.set (k - 2) v ++ ck) := by
  have h2 : 2 ≤ k ∧ k < n + 6 := by
    rcases hk with rfl | rfl | h <;> omega
  obtain ⟨m, rfl⟩ : ∃ m, k = m + 2 := ⟨k - 2, by omega⟩
  simp only [List.set_cons_succ, Nat.add_sub_cancel]
  rw [List.set_append_left _ _ (by omega)]

variable {P : Type} {M : Nat} {D : Dispatch P}

/-- **C82** Two bytes among class, id and payload of a frame are replaced.  If the changes cancel
the result is another frame, which is delivered; otherwise the first answer is
`InvalidChecksum`. -/
theorem c82_two_bytes {T : Type} [UnderlyingBuffer T] [LawfulBuffer M T]
    {p : Parser T} (hM : D.maxPayloadLen + 8 ≤ M) (hm : D.maxPayloadLen ≤ 65535)
    (hi : LawfulBuffer.Inv M p.buf) (chunk : Bytes)
    (hc : chunk.length ≤ M / 2) (hr : LawfulBuffer.Room M T (p.bufferLen + chunk.length)) (n : Nat)
    (sep : Bytes) (hsep : (0xb5 : UInt8) ∉ sep) (c i : UInt8) (payload rest : Bytes)
    (hp : payload.length ≤ D.maxPayloadLen) (hcap : payload.length + 2 ≤ maxCapacity p.buf)
    (j k : Nat) (hj : DataPos payload.length j) (hk : DataPos payload.length k) (hjk : j < k)
    (x y u v : UInt8) (hx : (frame c i payload)[j]? = some x)
    (hy : (frame c i payload)[k]? = some y)
    (hall : LawfulBuffer.contents M p.buf ++ chunk =
      sep ++ ((frame c i payload).set j u).set k v ++ rest) :
    (Cancel (k - j) x u y v → ∃ c' i' payload' rs q,
      ((frame c i payload).set j u).set k v = frame c' i' payload' ∧
      feed M D p chunk (n + 1) = some (.ok (some (D.matchPacket c' i' payload') :: rs, q))) ∧
    (¬ Cancel (k - j) x u y v → ∃ e g rs q, feed M D p chunk (n + 1) =
      some (.ok (some (.error (.invalidChecksum e g)) :: rs, q))) := by
  obtain ⟨j1, j2, j3⟩ := get_data (c := c) (i := i) hj
  obtain ⟨k1, k2, k3⟩ := get_data (c := c) (i := i) hk
  have hj2 : 2 ≤ j := by rcases hj with h | h | h <;> omega
  obtain rfl : (body c i payload)[j - 2] = x := by
    rw [List.getElem?_eq_getElem j2, Option.some_inj] at hx; rw [← hx, j3]
  obtain rfl : (body c i payload)[k - 2] = y := by
    rw [List.getElem?_eq_getElem k2, Option.some_inj] at hy; rw [← hy, k3]
  have hb : (body c i payload).length = payload.length + 4 := by simp [body]
  obtain ⟨c1, i1, p1, e1, l1⟩ := set_body (c := c) (i := i) hj u
  obtain ⟨c', i', p', e2, l2⟩ := set_body (c := c1) (i := i1) (payload := p1) (by rw [l1]; exact hk) v
  have hs : ((frame c i payload).set j u).set k v =
      0xb5 :: 0x62 :: (body c' i' p' ++ [ckA (body c i payload), ckB (body c i payload)]) := by
    rw [frame, set_data hb hj, set_data (by rw [List.length_set, hb]) hk, e1, e2]
  have hiff := sums_kept_iff (xs := body c i payload) (j := j - 2) (k := k - 2) (by omega) k1 u v
  rw [e1, e2, show k - 2 - (j - 2) = k - j by omega] at hiff
  constructor
  · intro hcan
    obtain ⟨ha, hb'⟩ := hiff.2 hcan
    have hfr : ((frame c i payload).set j u).set k v = frame c' i' p' := by
      rw [hs, frame, ha, hb']
    rw [hfr] at hall
    obtain ⟨rs, q, h⟩ := c08_available_frame_delivered (D := D) hM hm hi chunk hc hr n sep hsep c' i' p' rest
      (by omega) (by omega) hall
    exact ⟨c', i', p', rs, q, hfr, h⟩
  · intro hcan
    have hne : (ckA (body c i payload), ckB (body c i payload)) ≠
        (ckA (body c' i' p'), ckB (body c' i' p')) := by
      intro h
      injection h with h1 h2
      exact hcan (hiff.1 ⟨h1.symm, h2.symm⟩)
    obtain ⟨rs, q, h⟩ := bad_frame_first (D := D) hM hm hi hc hr n hsep (c := c') (i := i')
      (payload := p') (rest := rest) (by omega) (by omega) hne (by rw [hall, hs]; simp)
    exact ⟨_, _, rs, q, h⟩

theorem odd_cancel {d a b : Nat} (hd : d % 2 = 1) (hab : a ≤ b) (hb : b < 256)
    (h : d * a % 256 = d * b % 256) : a = b := by
  have h1 : (d * b - d * a) % 256 = 0 := Nat.sub_mod_eq_zero_of_mod_eq h.symm
  rw [← Nat.mul_sub] at h1
  have h2 : Nat.Coprime (2 ^ 8) d := by
    apply Nat.Coprime.pow_left
    rw [Nat.Coprime, Nat.gcd_rec, hd, Nat.gcd_one_left]
  have h3 := h2.dvd_of_dvd_mul_left (Nat.dvd_of_mod_eq_zero h1)
  omega

/-- Changes that cancel at an odd distance are no changes. -/
theorem cancel_odd {d : Nat} (hd : d % 2 = 1) {x x' y y' : UInt8} (h : Cancel d x x' y y') :
    x' = x ∧ y' = y := by
  obtain ⟨h1, h2⟩ := h
  have hx := x.toNat_lt
  have hx' := x'.toNat_lt
  have hy := y.toNat_lt
  have hy' := y'.toNat_lt
  have hxx : x.toNat = x'.toNat := by
    rcases Nat.le_total x.toNat x'.toNat with hle | hle
    · exact odd_cancel hd hle hx' h2
    · exact (odd_cancel hd hle hx h2.symm).symm
  constructor
  · exact UInt8.toNat_inj.1 hxx.symm
  · apply UInt8.toNat_inj.1
    omega

/-- **C82** Damage of two bytes at an odd distance — neighbours among them — is always detected. -/
theorem c82_odd_distance {T : Type} [UnderlyingBuffer T] [LawfulBuffer M T]
    {p : Parser T} (hM : D.maxPayloadLen + 8 ≤ M) (hm : D.maxPayloadLen ≤ 65535)
    (hi : LawfulBuffer.Inv M p.buf) (chunk : Bytes)
    (hc : chunk.length ≤ M / 2) (hr : LawfulBuffer.Room M T (p.bufferLen + chunk.length)) (n : Nat)
    (sep : Bytes) (hsep : (0xb5 : UInt8) ∉ sep) (c i : UInt8) (payload rest : Bytes)
    (hp : payload.length ≤ D.maxPayloadLen) (hcap : payload.length + 2 ≤ maxCapacity p.buf)
    (j k : Nat) (hj : DataPos payload.length j) (hk : DataPos payload.length k) (hjk : j < k)
    (hodd : (k - j) % 2 = 1) (u v : UInt8)
    (hne : ((frame c i payload).set j u).set k v ≠ frame c i payload)
    (hall : LawfulBuffer.contents M p.buf ++ chunk =
      sep ++ ((frame c i payload).set j u).set k v ++ rest) :
    ∃ e g rs q, feed M D p chunk (n + 1) =
      some (.ok (some (.error (.invalidChecksum e g)) :: rs, q)) := by
  obtain ⟨_, j2, _⟩ := get_data (c := c) (i := i) hj
  obtain ⟨_, k2, _⟩ := get_data (c := c) (i := i) hk
  refine (c82_two_bytes hM hm hi chunk hc hr n sep hsep c i payload rest hp hcap j k hj hk hjk
    _ _ u v (List.getElem?_eq_getElem j2) (List.getElem?_eq_getElem k2) hall).2 fun h => hne ?_
  obtain ⟨h1, h2⟩ := cancel_odd hodd h
  rw [h1, h2, List.set_getElem_self, List.set_getElem_self]

/-- Undetected damage: the highest bits of two bytes at distance two. -/
example : Cancel 2 1 0x81 3 0x83 ∧ DataPos 3 6 ∧ DataPos 3 8 ∧
    (frame 5 1 [1, 2, 3])[6]? = some 1 ∧ (frame 5 1 [1, 2, 3])[8]? = some 3 ∧
    ((frame 5 1 [1, 2, 3]).set 6 0x81).set 8 0x83 = frame 5 1 [0x81, 2, 0x83] := by decide

/-- Detected damage: other bits of the same bytes, and neighbours. -/
example : ¬ Cancel 2 1 2 3 2 ∧ ¬ Cancel 1 1 0x81 2 0x82 ∧ DataPos 3 7 ∧ (7 - 6) % 2 = 1 ∧
    ((frame 5 1 [1, 2, 3]).set 6 0x81).set 7 0x82 ≠ frame 5 1 [1, 2, 3] := by decide

end Ublox.Props
