import Verif.Props.Damage

/-!
# C87: which damage of a frame goes unnoticed
-/

namespace Ublox.Props

open Spec Parser
open UnderlyingBuffer (maxCapacity)

/-- The sum of the bytes weighted with the distance to the end. -/
def distSum : Bytes → Nat
  | [] => 0
  | x :: xs => (xs.length + 1) * x.toNat + distSum xs

theorem ckB_distSum (xs : Bytes) : ckB xs = UInt8.ofNat (distSum xs) := by
  induction xs with
  | nil => rfl
  | cons x xs ih =>
    rw [ckB_cons, ih, distSum, UInt8.ofNat_add ((xs.length + 1) * x.toNat), UInt8.ofNat_mul,
      UInt8.ofNat_toNat]

theorem sum_change {xs ys : Bytes} (h : ys.length = xs.length) :
    ((List.range xs.length).map (change xs ys)).sum = (byteSum ys : Int) - byteSum xs := by
  induction xs generalizing ys with
  | nil => simp_all [byteSum]
  | cons x xs ih =>
    cases ys with
    | nil => simp at h
    | cons y ys =>
      have e : (change (x :: xs) (y :: ys)) ∘ Nat.succ = change xs ys := by
        funext k; simp [change]
      rw [List.length_cons, List.range_succ_eq_map, List.map_cons, List.map_map, List.sum_cons, e,
        ih (by simpa using h)]
      simp [change, byteSum]
      omega

theorem sum_weighted {xs ys : Bytes} (h : ys.length = xs.length) :
    ((List.range xs.length).map fun k => ((xs.length - k : Nat) : Int) * change xs ys k).sum =
      (distSum ys : Int) - distSum xs := by
  induction xs generalizing ys with
  | nil => simp_all [distSum]
  | cons x xs ih =>
    cases ys with
    | nil => simp at h
    | cons y ys =>
      have hl : ys.length = xs.length := by simpa using h
      have e : (fun k => (((x :: xs).length - k : Nat) : Int) * change (x :: xs) (y :: ys) k) ∘
          Nat.succ = fun k => ((xs.length - k : Nat) : Int) * change xs ys k := by
        funext k; simp [change]
      rw [List.length_cons, List.range_succ_eq_map, List.map_cons, List.map_map, List.sum_cons]
      rw [List.length_cons] at e
      rw [e, ih hl]
      simp only [change, distSum, hl, List.getElem?_cons_zero, Option.getD_some, Nat.sub_zero,
        Int.mul_sub]
      push_cast
      omega

/-- The two conditions read off the two lists of covered bytes. -/
theorem unnoticed_iff {xs ys : Bytes} {n : Nat} (hx : xs.length = n + 4) (hy : ys.length = n + 4)
    (a b a' b' : UInt8) (ha : a = ckA xs) (hb : b = ckB xs) :
    Unnoticed n (0xb5 :: 0x62 :: (xs ++ [a, b])) (0xb5 :: 0x62 :: (ys ++ [a', b'])) ↔
      a' = ckA ys ∧ b' = ckB ys := by
  have hz : ∀ k, change (0xb5 :: 0x62 :: (xs ++ [a, b])) (0xb5 :: 0x62 :: (ys ++ [a', b'])) (k + 2)
      = change (xs ++ [a, b]) (ys ++ [a', b']) k := by intro k; simp [change]
  have h0 : change (0xb5 :: 0x62 :: (xs ++ [a, b])) (0xb5 :: 0x62 :: (ys ++ [a', b'])) 0 = 0 := by
    simp [change]
  have h1 : change (0xb5 :: 0x62 :: (xs ++ [a, b])) (0xb5 :: 0x62 :: (ys ++ [a', b'])) 1 = 0 := by
    simp [change]
  have hlow : ∀ k, k < n + 4 → change (xs ++ [a, b]) (ys ++ [a', b']) k = change xs ys k := by
    intro k hk
    simp only [change]
    rw [List.getElem?_append_left (by omega), List.getElem?_append_left (by omega)]
  have hA : change (xs ++ [a, b]) (ys ++ [a', b']) (n + 4) = (a'.toNat : Int) - a.toNat := by
    simp only [change]
    rw [List.getElem?_append_right (by omega), List.getElem?_append_right (by omega)]
    simp [hx, hy]
  have hB : change (xs ++ [a, b]) (ys ++ [a', b']) (n + 5) = (b'.toNat : Int) - b.toNat := by
    simp only [change]
    rw [List.getElem?_append_right (by omega), List.getElem?_append_right (by omega)]
    simp [hx, hy]
  have hs := sum_change (xs := xs) (ys := ys) (by omega)
  have hw := sum_weighted (xs := xs) (ys := ys) (by omega)
  rw [hx] at hs hw
  have e1 : ((List.range (n + 6)).map
      (change (0xb5 :: 0x62 :: (xs ++ [a, b])) (0xb5 :: 0x62 :: (ys ++ [a', b'])))).sum =
      (byteSum ys : Int) - byteSum xs := by
    rw [← hs, show n + 6 = n + 4 + 1 + 1 by omega, List.range_succ_eq_map, List.range_succ_eq_map]
    simp only [List.map_cons, List.map_map, List.sum_cons, h0, h1, Int.zero_add]
    congr 1
    apply List.map_congr_left
    intro k hk
    simp only [Function.comp_apply, Nat.succ_eq_add_one]
    rw [hz, hlow k (by simpa using hk)]
  have e2 : ((List.range (n + 6)).map fun k => ((n + 6 - k : Nat) : Int) *
      change (0xb5 :: 0x62 :: (xs ++ [a, b])) (0xb5 :: 0x62 :: (ys ++ [a', b'])) k).sum =
      (distSum ys : Int) - distSum xs := by
    rw [← hw, show List.range (n + 6) = List.range (n + 4 + 1 + 1) from rfl,
      List.range_succ_eq_map, List.range_succ_eq_map]
    simp only [List.map_cons, List.map_map, List.sum_cons, h0, h1, Int.zero_add, Int.mul_zero]
    congr 1
    apply List.map_congr_left
    intro k hk
    simp only [Function.comp_apply, Nat.succ_eq_add_one]
    rw [hz, hlow k (by simpa using hk), show n + 6 - (k + 1 + 1) = n + 4 - k by omega]
  rw [Unnoticed, e1, e2, show n + 6 = (n + 4) + 2 by omega, show n + 7 = (n + 5) + 2 by omega,
    hz, hz, hA, hB, ha, hb, ckB_distSum, ckB_distSum, ckA, ckA, ← UInt8.toNat_inj,
    ← UInt8.toNat_inj]
  simp only [UInt8.toNat_ofNat']
  have := a'.toNat_lt
  have := b'.toNat_lt
  constructor
  · rintro ⟨h1, h2⟩
    constructor <;> omega
  · rintro ⟨h1, h2⟩
    constructor <;> omega

variable {P : Type} {M : Nat} {D : Dispatch P}

/-- **C87** Any damage of a frame that leaves the two sync characters and the length field alone.
It goes unnoticed exactly under the condition `Unnoticed`; then the damaged bytes are a frame, which
is delivered, and otherwise the first answer is `InvalidChecksum`. -/
theorem c87_exact {T : Type} [UnderlyingBuffer T] [LawfulBuffer M T]
    {p : Parser T} (hM : D.maxPayloadLen + 8 ≤ M) (hm : D.maxPayloadLen ≤ 65535)
    (hi : LawfulBuffer.Inv M p.buf) (chunk : Bytes)
    (hc : chunk.length ≤ M / 2) (hr : LawfulBuffer.Room M T (p.bufferLen + chunk.length)) (n : Nat)
    (sep : Bytes) (hsep : (0xb5 : UInt8) ∉ sep) (c i : UInt8) (payload rest : Bytes)
    (hp : payload.length ≤ D.maxPayloadLen) (hcap : payload.length + 2 ≤ maxCapacity p.buf)
    (g : Bytes) (hlen : g.length = (frame c i payload).length)
    (hkeep : ∀ k, k = 0 ∨ k = 1 ∨ k = 4 ∨ k = 5 → g[k]? = (frame c i payload)[k]?)
    (hall : LawfulBuffer.contents M p.buf ++ chunk = sep ++ g ++ rest) :
    (Unnoticed payload.length (frame c i payload) g → ∃ c' i' payload' rs q,
      g = frame c' i' payload' ∧ payload'.length = payload.length ∧
      feed M D p chunk (n + 1) = some (.ok (some (D.matchPacket c' i' payload') :: rs, q))) ∧
    (¬ Unnoticed payload.length (frame c i payload) g → ∃ e g rs q,
      feed M D p chunk (n + 1) =
        some (.ok (some (.error (.invalidChecksum e g)) :: rs, q))) := by
  have hl : g.length = payload.length + 8 := by rw [hlen]; simp [frame, body]
  obtain ⟨g0, g1, c', i', g4, g5, t, rfl⟩ : ∃ g0 g1 c' i' g4 g5 t,
      g = g0 :: g1 :: c' :: i' :: g4 :: g5 :: t := by
    match g, hl with
    | g0 :: g1 :: c' :: i' :: g4 :: g5 :: t, _ => exact ⟨_, _, _, _, _, _, _, rfl⟩
  have ht : t.length = payload.length + 2 := by simpa using hl
  have k0 := hkeep 0 (by simp)
  have k1 := hkeep 1 (by simp)
  have k4 := hkeep 4 (by simp)
  have k5 := hkeep 5 (by simp)
  simp [frame, body] at k0 k1 k4 k5
  obtain ⟨p', a', b', rfl⟩ : ∃ p' a' b', t = p' ++ [a', b'] := by
    refine ⟨t.take payload.length, t[payload.length], t[payload.length + 1], ?_⟩
    apply List.ext_getElem?
    intro k
    rcases Nat.lt_trichotomy k payload.length with h | h | h
    · rw [List.getElem?_append_left (by simp; omega), List.getElem?_take_of_lt h]
    · subst h
      rw [List.getElem?_append_right (by simp; omega)]
      simp [ht]
    · rw [List.getElem?_append_right (by simp; omega)]
      rcases Nat.lt_or_ge k (payload.length + 2) with h' | h'
      · obtain rfl : k = payload.length + 1 := by omega
        rw [List.length_take, show payload.length + 1 - min payload.length t.length = 1 by omega,
          List.getElem?_eq_getElem (by omega)]
        rfl
      · rw [List.getElem?_eq_none (by omega), List.getElem?_eq_none (by simp; omega)]
  have hp' : p'.length = payload.length := by simpa using ht
  have hg : g0 :: g1 :: c' :: i' :: g4 :: g5 :: (p' ++ [a', b']) =
      0xb5 :: 0x62 :: (body c' i' p' ++ [a', b']) := by
    rw [k0, k1, k4, k5, body, hp']; simp
  rw [hg] at hall ⊢
  have hiff := unnoticed_iff (xs := body c i payload) (ys := body c' i' p') (n := payload.length)
    (by simp [body]) (by simp [body, hp']) _ _ a' b' rfl rfl
  rw [frame] at *
  rw [hiff]
  constructor
  · rintro ⟨rfl, rfl⟩
    obtain ⟨rs, q, h⟩ := c08_available_frame_delivered (D := D) hM hm hi chunk hc hr n sep hsep
      c' i' p' rest (by omega) (by omega) hall
    exact ⟨c', i', p', rs, q, rfl, hp', h⟩
  · intro hne
    obtain ⟨rs, q, h⟩ := bad_frame_first (D := D) hM hm hi hc hr n hsep (c := c') (i := i')
      (payload := p') (rest := rest) (a := a') (b := b') (by omega) (by omega)
      (fun h => hne (by injection h with h1 h2; exact ⟨h1, h2⟩)) (by rw [hall]; simp)
    exact ⟨_, _, rs, q, h⟩

/-- A sum with at most two terms that are not zero. -/
theorem sum_two (h : Nat → Int) {j k : Nat} (hjk : j < k) (hz : ∀ l, l ≠ j → l ≠ k → h l = 0)
    (m : Nat) : ((List.range m).map h).sum = (if j < m then h j else 0) + if k < m then h k else 0 := by
  induction m with
  | zero => simp
  | succ m ih =>
    rw [List.range_succ, List.map_append, List.sum_append, ih]
    simp only [List.map_cons, List.map_nil, List.sum_cons, List.sum_nil, Int.add_zero]
    by_cases hj : m = j
    · subst hj
      rw [if_neg (by omega), if_neg (by omega), if_pos (by omega), if_neg (by omega)]
      omega
    · by_cases hk : m = k
      · subst hk
        rw [if_pos hjk, if_neg (by omega), if_pos (by omega), if_pos (by omega)]
        omega
      · rw [hz m hj hk]
        by_cases h1 : j < m <;> by_cases h2 : k < m <;>
          simp [h1, h2, show (j < m + 1) = (j < m) by simp; omega,
            show (k < m + 1) = (k < m) by simp; omega]

theorem sum_none (h : Nat → Int) (m : Nat) (hz : ∀ k, k < m → h k = 0) :
    ((List.range m).map h).sum = 0 := by
  induction m with
  | zero => rfl
  | succ m ih =>
    rw [List.range_succ, List.map_append, List.sum_append, ih (fun k hk => hz k (by omega))]
    simp [hz m (by omega)]

theorem change_same {f g : Bytes} {k : Nat} (h : g[k]? = f[k]?) : change f g k = 0 := by
  simp [change, h]

theorem same_of_change {f g : Bytes} {k : Nat} (hl : g.length = f.length)
    (h : change f g k % 256 = 0) : g[k]? = f[k]? := by
  by_cases hk : k < f.length
  · have hk' : k < g.length := by omega
    simp only [change, List.getElem?_eq_getElem hk, List.getElem?_eq_getElem hk',
      Option.getD_some] at h
    rw [List.getElem?_eq_getElem hk, List.getElem?_eq_getElem hk']
    congr 1
    apply UInt8.toNat_inj.1
    have := (f[k]).toNat_lt
    have := (g[k]).toNat_lt
    omega
  · rw [List.getElem?_eq_none (by omega), List.getElem?_eq_none (by omega)]

/-- Two changes, the first of them before the checksum, that go unnoticed. -/
theorem unnoticed_two {n : Nat} {f g : Bytes} {j k : Nat} (hj : j < n + 6) (hjk : j < k)
    (hz : ∀ l, l ≠ j → l ≠ k → g[l]? = f[l]?) : Unnoticed n f g ↔
      if k < n + 6 then (change f g j + change f g k) % 256 = 0 ∧
        (((n + 6 - j : Nat) : Int) * change f g j + ((n + 6 - k : Nat) : Int) * change f g k) % 256
          = 0
      else if k = n + 6 then (change f g j - change f g k) % 256 = 0 ∧
        (((n + 6 - j : Nat) : Int) * change f g j) % 256 = 0
      else change f g j % 256 = 0 ∧
        (((n + 6 - j : Nat) : Int) * change f g j) % 256 = change f g (n + 7) % 256 := by
  have hz' : ∀ l, l ≠ j → l ≠ k → change f g l = 0 := fun l h1 h2 => change_same (hz l h1 h2)
  rw [Unnoticed, sum_two _ hjk hz',
    sum_two (fun k => ((n + 6 - k : Nat) : Int) * change f g k) hjk
      (fun l h1 h2 => by simp [hz' l h1 h2]), if_pos hj, if_pos hj]
  by_cases h1 : k < n + 6
  · rw [if_pos h1, if_pos h1, if_pos h1, hz' (n + 6) (by omega) (by omega),
      hz' (n + 7) (by omega) (by omega)]
    rfl
  · rw [if_neg h1, if_neg h1, if_neg h1]
    by_cases h2 : k = n + 6
    · subst h2
      rw [if_pos rfl, hz' (n + 7) (by omega) (by omega)]
      simp only [Int.add_zero]
      constructor
      · rintro ⟨a, b⟩
        exact ⟨by omega, by omega⟩
      · rintro ⟨a, b⟩
        exact ⟨by omega, by omega⟩
    · rw [if_neg h2, hz' (n + 6) (by omega) (by omega)]
      simp only [Int.add_zero]
      rfl

theorem near_zero {w x y : Int} (a : (x + y) % 256 = 0) (b : ((w + 1) * x + w * y) % 256 = 0) :
    x % 256 = 0 ∧ y % 256 = 0 := by
  have e : (w + 1) * x + w * y = x + w * (x + y) := by
    rw [Int.add_mul, Int.mul_add, Int.one_mul]; omega
  have h : w * (x + y) % 256 = 0 := by rw [Int.mul_emod, a]; simp
  rw [e] at b
  omega

/-- **C87** Damage confined to two neighbouring bytes, checksum bytes included, is always
detected. -/
theorem c87_neighbours {T : Type} [UnderlyingBuffer T] [LawfulBuffer M T]
    {p : Parser T} (hM : D.maxPayloadLen + 8 ≤ M) (hm : D.maxPayloadLen ≤ 65535)
    (hi : LawfulBuffer.Inv M p.buf) (chunk : Bytes)
    (hc : chunk.length ≤ M / 2) (hr : LawfulBuffer.Room M T (p.bufferLen + chunk.length)) (n : Nat)
    (sep : Bytes) (hsep : (0xb5 : UInt8) ∉ sep) (c i : UInt8) (payload rest : Bytes)
    (hp : payload.length ≤ D.maxPayloadLen) (hcap : payload.length + 2 ≤ maxCapacity p.buf)
    (g : Bytes) (hlen : g.length = (frame c i payload).length)
    (hkeep : ∀ k, k = 0 ∨ k = 1 ∨ k = 4 ∨ k = 5 → g[k]? = (frame c i payload)[k]?)
    (j : Nat) (hz : ∀ l, l ≠ j → l ≠ j + 1 → g[l]? = (frame c i payload)[l]?)
    (hne : g ≠ frame c i payload)
    (hall : LawfulBuffer.contents M p.buf ++ chunk = sep ++ g ++ rest) :
    ∃ e g rs q, feed M D p chunk (n + 1) =
      some (.ok (some (.error (.invalidChecksum e g)) :: rs, q)) := by
  refine (c87_exact hM hm hi chunk hc hr n sep hsep c i payload rest hp hcap g hlen hkeep hall).2
    fun hu => hne ?_
  have hl : (frame c i payload).length = payload.length + 8 := by simp [frame, body]
  have key : g[j]? = (frame c i payload)[j]? ∧ g[j + 1]? = (frame c i payload)[j + 1]? := by
    by_cases h1 : j < payload.length + 6
    · rw [unnoticed_two h1 (by omega : j < j + 1) hz] at hu
      by_cases h2 : j + 1 < payload.length + 6
      · rw [if_pos h2] at hu
        obtain ⟨a, b⟩ := hu
        rw [show payload.length + 6 - j = (payload.length + 6 - (j + 1)) + 1 by omega,
          Int.natCast_add] at b
        obtain ⟨h3, h4⟩ := near_zero a b
        exact ⟨same_of_change hlen h3, same_of_change hlen h4⟩
      · obtain rfl : j = payload.length + 5 := by omega
        rw [if_neg (by omega), if_pos (by omega), show payload.length + 6 - (payload.length + 5) = 1
          by omega] at hu
        obtain ⟨a, b⟩ := hu
        exact ⟨same_of_change hlen (by omega), same_of_change hlen (by omega)⟩
    · have hs := fun h => sum_none h (payload.length + 6)
      have hz' : ∀ k, k < payload.length + 6 → change (frame c i payload) g k = 0 :=
        fun k hk => change_same (hz k (by omega) (by omega))
      rw [Unnoticed, hs _ hz', hs _ (fun k hk => by rw [hz' k hk, Int.mul_zero])] at hu
      have h6 : g[payload.length + 6]? = (frame c i payload)[payload.length + 6]? :=
        same_of_change hlen hu.1.symm
      have h7 : g[payload.length + 7]? = (frame c i payload)[payload.length + 7]? :=
        same_of_change hlen hu.2.symm
      have hall' : ∀ k, payload.length + 6 ≤ k → g[k]? = (frame c i payload)[k]? := by
        intro k hk
        rcases Nat.lt_or_ge k (payload.length + 8) with h | h
        · rcases (by omega : k = payload.length + 6 ∨ k = payload.length + 7) with rfl | rfl
          · exact h6
          · exact h7
        · rw [List.getElem?_eq_none (by omega), List.getElem?_eq_none (by omega)]
      exact ⟨hall' j (by omega), hall' (j + 1) (by omega)⟩
  apply List.ext_getElem?
  intro k
  by_cases h1 : k = j
  · exact h1 ▸ key.1
  by_cases h2 : k = j + 1
  · exact h2 ▸ key.2
  exact hz k h1 h2

/-- **C87** Damage of one byte before the checksum and of the second checksum byte is always
detected. -/
theorem c87_second_checksum {T : Type} [UnderlyingBuffer T] [LawfulBuffer M T]
    {p : Parser T} (hM : D.maxPayloadLen + 8 ≤ M) (hm : D.maxPayloadLen ≤ 65535)
    (hi : LawfulBuffer.Inv M p.buf) (chunk : Bytes)
    (hc : chunk.length ≤ M / 2) (hr : LawfulBuffer.Room M T (p.bufferLen + chunk.length)) (n : Nat)
    (sep : Bytes) (hsep : (0xb5 : UInt8) ∉ sep) (c i : UInt8) (payload rest : Bytes)
    (hp : payload.length ≤ D.maxPayloadLen) (hcap : payload.length + 2 ≤ maxCapacity p.buf)
    (j : Nat) (hj : DataPos payload.length j) (u v : UInt8)
    (hne : ((frame c i payload).set j u).set (payload.length + 7) v ≠ frame c i payload)
    (hall : LawfulBuffer.contents M p.buf ++ chunk =
      sep ++ ((frame c i payload).set j u).set (payload.length + 7) v ++ rest) :
    ∃ e g rs q, feed M D p chunk (n + 1) =
      some (.ok (some (.error (.invalidChecksum e g)) :: rs, q)) := by
  have hj6 : 2 ≤ j ∧ j < payload.length + 6 ∧ j ≠ 4 ∧ j ≠ 5 := by
    rcases hj with h | h | h <;> omega
  have hlen : (((frame c i payload).set j u).set (payload.length + 7) v).length =
      (frame c i payload).length := by simp
  have hz : ∀ l, l ≠ j → l ≠ payload.length + 7 →
      (((frame c i payload).set j u).set (payload.length + 7) v)[l]? = (frame c i payload)[l]? := by
    intro l h1 h2
    rw [List.getElem?_set_ne (by omega), List.getElem?_set_ne (by omega)]
  refine (c87_exact hM hm hi chunk hc hr n sep hsep c i payload rest hp hcap _ hlen
    (fun k hk => hz k (by omega) (by omega)) hall).2 fun hu => hne ?_
  rw [unnoticed_two hj6.2.1 (by omega) hz, if_neg (by omega), if_neg (by omega)] at hu
  obtain ⟨a, b⟩ := hu
  have h1 := same_of_change hlen a
  rw [Int.mul_emod, a, Int.mul_zero, Int.zero_emod] at b
  have h2 := same_of_change hlen b.symm
  apply List.ext_getElem?
  intro k
  by_cases e1 : k = j
  · exact e1 ▸ h1
  by_cases e2 : k = payload.length + 7
  · exact e2 ▸ h2
  exact hz k e1 e2

/-- **C87** Damage of one byte before the checksum and of the first checksum byte goes unnoticed
exactly if both change by the same amount and this, times the distance to the checksum, is zero
modulo 256. -/
theorem c87_first_checksum {c i : UInt8} {payload : Bytes} {j : Nat}
    (hj : DataPos payload.length j) (u v : UInt8) :
    Unnoticed payload.length (frame c i payload)
        (((frame c i payload).set j u).set (payload.length + 6) v) ↔
      (((u.toNat : Int) - ((frame c i payload)[j]?.getD 0).toNat) -
        ((v.toNat : Int) - (ckA (body c i payload)).toNat)) % 256 = 0 ∧
      ((payload.length + 6 - j : Nat) *
        ((u.toNat : Int) - ((frame c i payload)[j]?.getD 0).toNat)) % 256 = 0 := by
  have hl : (frame c i payload).length = payload.length + 8 := by simp [frame, body]
  have hj6 : 2 ≤ j ∧ j < payload.length + 6 ∧ j ≠ 4 ∧ j ≠ 5 := by
    rcases hj with h | h | h <;> omega
  have hz : ∀ l, l ≠ j → l ≠ payload.length + 6 →
      (((frame c i payload).set j u).set (payload.length + 6) v)[l]? = (frame c i payload)[l]? := by
    intro l h1 h2
    rw [List.getElem?_set_ne (by omega), List.getElem?_set_ne (by omega)]
  have hA : (frame c i payload)[payload.length + 6]? = some (ckA (body c i payload)) := by
    have hb : (body c i payload).length = payload.length + 4 := by simp [body]
    rw [frame, show payload.length + 6 = payload.length + 4 + 1 + 1 by omega,
      List.getElem?_cons_succ, List.getElem?_cons_succ, List.getElem?_append_right (by omega), hb]
    simp
  have e1 : change (frame c i payload) (((frame c i payload).set j u).set (payload.length + 6) v) j
      = (u.toNat : Int) - ((frame c i payload)[j]?.getD 0).toNat := by
    rw [change, List.getElem?_set_ne (by omega), List.getElem?_set_self (by omega)]
    rfl
  have e2 : change (frame c i payload) (((frame c i payload).set j u).set (payload.length + 6) v)
      (payload.length + 6) = (v.toNat : Int) - (ckA (body c i payload)).toNat := by
    rw [change, List.getElem?_set_self (by simp [hl]), hA]
    rfl
  rw [unnoticed_two hj6.2.1 (by omega) hz, if_neg (by omega), if_pos rfl, e1, e2]

/-- Undetected damage of three neighbours, and of a byte of the payload and the first checksum
byte; detected damage of four bytes. -/
example : Unnoticed 3 (frame 5 1 [1, 2, 3]) (frame 5 1 [2, 0, 4]) ∧
    (frame 5 1 [2, 0, 4]).drop 9 = (frame 5 1 [1, 2, 3]).drop 9 ∧
    Unnoticed 2 (frame 5 1 [1, 2]) (((frame 5 1 [1, 2]).set 6 0x81).set 8 0x8b) ∧
    ((frame 5 1 [1, 2]).set 6 0x81).set 8 0x8b = frame 5 1 [0x81, 2] ∧
    DataPos 2 6 ∧ ¬ Unnoticed 3 (frame 5 1 [1, 2, 3])
      (0xb5 :: 0x62 :: 6 :: 2 :: 3 :: 0 :: 7 :: 7 :: (frame 5 1 [1, 2, 3]).drop 8) := by decide

/-- The hypotheses of `c87_neighbours` with damage of the last byte of the payload and the first
checksum byte. -/
example : let f := frame 5 1 [1, 2, 3]
    let g := (f.set 8 7).set 9 0
    g.length = f.length ∧ (∀ k, k = 0 ∨ k = 1 ∨ k = 4 ∨ k = 5 → g[k]? = f[k]?) ∧
      (∀ l, l ≠ 8 → l ≠ 8 + 1 → g[l]? = f[l]?) ∧ g ≠ f ∧
      (f.set 8 7).set (3 + 7) 0 ≠ f := by
  refine ⟨by decide, ?_, ?_, by decide, by decide⟩
  · rintro k (rfl | rfl | rfl | rfl) <;> rfl
  · intro l h1 h2
    rw [List.getElem?_set_ne (by omega), List.getElem?_set_ne (by omega)]

end Ublox.Props
