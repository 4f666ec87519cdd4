import Verif.Model.Error
import Verif.Spec.Text
import Verif.Props.Packet

/-!
# C77: the text of an error tells which error it is
-/

namespace Ublox.Props

open Spec Ublox.Parser

theorem digitChar_mem {v : Nat} (h : v < 16) : (v.digitChar, v) ∈ digitTable := by
  have : ∀ v < 16, (Nat.digitChar v, v) ∈ digitTable := by decide
  exact this v h

theorem digits_numeral {b : Nat} (h2 : 2 ≤ b) (h16 : b ≤ 16) (n : Nat) : Numeral b (digits b n) n := by
  have key : Reads b (digits b n) n ∧ ((digits b n).head? = some '0' → n = 0) ∧ digits b n ≠ [] := by
    fun_induction digits b n with
    | case1 n h =>
      have hn : n < b := by omega
      refine ⟨.digit (digitChar_mem (by omega)) hn, fun h => ?_, by simp⟩
      have : ∀ v < 16, Nat.digitChar v = '0' → v = 0 := by decide
      exact this n (by omega) (by simpa using h)
    | case2 n h ih =>
      have hlt : n % b < b := Nat.mod_lt _ (by omega)
      refine ⟨?_, fun h0 => ?_, by simp⟩
      · have := Reads.snoc ih.1 (digitChar_mem (v := n % b) (by omega)) hlt
        rwa [Nat.mul_comm, Nat.div_add_mod] at this
      · rw [List.head?_append, Option.or_of_isSome (by
          cases hd : digits b (n / b) with
          | nil => exact absurd hd ih.2.2
          | cons => rfl)] at h0
        have := ih.2.1 h0
        rcases Nat.div_eq_zero_iff.mp this with h' | h' <;> omega
  exact ⟨key.1, key.2.1⟩

theorem numeral_numeral {b : Nat} (h2 : 2 ≤ b) (h16 : b ≤ 16) (n : Nat) :
    Numeral b (numeral b n).toList n := by
  unfold numeral
  rw [String.toList_ofList]
  exact digits_numeral h2 h16 n

/-- **C77**: the text of an error names the kind of the error and contains its numbers and names. -/
theorem c77_message (e : ParserError) : Message e.display e := by
  cases e with
  | invalidChecksum a b =>
    exact ⟨_, _, numeral_numeral (by decide) (by decide) _, numeral_numeral (by decide) (by decide) _, rfl⟩
  | invalidField p f => rfl
  | invalidPacketLen p a b =>
    exact ⟨_, _, numeral_numeral (by decide) (by decide) _, numeral_numeral (by decide) (by decide) _, rfl⟩
  | outOfMemory n => exact ⟨_, numeral_numeral (by decide) (by decide) _, rfl⟩

theorem _root_.Ublox.Spec.Reads.chars {b : Nat} {cs : List Char} {n : Nat} (h : Reads b cs n) :
    ∀ c ∈ cs, ∃ v, (c, v) ∈ digitTable := by
  induction h with
  | digit h _ => intro c hc; rw [List.mem_singleton.mp hc]; exact ⟨_, h⟩
  | snoc _ h _ ih =>
    intro c hc
    rcases List.mem_append.mp hc with hc | hc
    · exact ih c hc
    · rw [List.mem_singleton.mp hc]; exact ⟨_, h⟩

theorem _root_.Ublox.Spec.Reads.ne_nil {b : Nat} {cs : List Char} {n : Nat} (h : Reads b cs n) : cs ≠ [] := by
  cases h <;> simp

/-- A numeral means one number. -/
theorem _root_.Ublox.Spec.Reads.unique {b : Nat} {cs : List Char} {n m : Nat} (h : Reads b cs n) (h' : Reads b cs m) :
    n = m := by
  have hv : ∀ c v w, (c, v) ∈ digitTable → (c, w) ∈ digitTable → v = w := by
    have : ∀ x ∈ digitTable, ∀ y ∈ digitTable, x.1 = y.1 → x.2 = y.2 := by decide
    exact fun c v w h1 h2 => this _ h1 _ h2 rfl
  induction h generalizing m with
  | @digit c v h1 h2 =>
    generalize hx : [c] = xs at h'
    cases h' with
    | digit h3 h4 => cases hx; exact hv _ _ _ h1 h3
    | snoc h3 h4 h5 =>
      have := h3.ne_nil
      have hl := congrArg List.length hx
      simp at hl
      contradiction
  | @snoc ds k c v h1 h2 h3 ih =>
    generalize hx : ds ++ [c] = xs at h'
    cases h' with
    | digit h4 h5 =>
      have := h1.ne_nil
      have hl := congrArg List.length hx
      simp at hl
      contradiction
    | snoc h4 h5 h6 =>
      obtain ⟨rfl, hc⟩ := List.append_inj' hx rfl
      cases hc
      rw [ih h4, hv _ _ _ h2 h5]

/-- What comes before the first of certain characters is determined. -/
theorem split_first {P : Char → Prop} {a b x y : List Char} (c d : Char) (ha : ∀ k ∈ a, P k)
    (hb : ∀ k ∈ b, P k) (hc : ¬ P c) (hd : ¬ P d) (h : a ++ c :: x = b ++ d :: y) :
    a = b ∧ c :: x = d :: y := by
  induction a generalizing b with
  | nil =>
    cases b with
    | nil => exact ⟨rfl, h⟩
    | cons k b =>
      simp only [List.nil_append, List.cons_append, List.cons.injEq] at h
      exact absurd (h.1 ▸ hb k (by simp)) hc
  | cons k a ih =>
    cases b with
    | nil =>
      simp only [List.nil_append, List.cons_append, List.cons.injEq] at h
      exact absurd (h.1 ▸ ha k (by simp)) hd
    | cons l b =>
      simp only [List.cons_append, List.cons.injEq] at h
      obtain ⟨rfl, h⟩ := h
      obtain ⟨h1, h2⟩ := ih (fun z hz => ha z (by simp [hz])) (fun z hz => hb z (by simp [hz])) h
      exact ⟨by rw [h1], h2⟩

/-- What comes before a fixed separator is determined. -/
theorem split_at {P : Char → Prop} {a b x y : List Char} {s : List Char} (c : Char)
    (ha : ∀ k ∈ a, P k) (hb : ∀ k ∈ b, P k) (hs : s.head? = some c) (hc : ¬ P c)
    (h : a ++ (s ++ x) = b ++ (s ++ y)) : a = b ∧ x = y := by
  cases s with
  | nil => cases hs
  | cons d s =>
    cases hs
    obtain ⟨h1, h2⟩ := split_first c c ha hb hc hc h
    exact ⟨h1, List.append_cancel_left (List.cons.inj h2).2⟩

/-- How the message about a kind of error starts. -/
def kind : ParserError → String
  | .invalidChecksum _ _ => "Not valid packet's checksum, expect "
  | .invalidField _ _ => "Invalid field "
  | .invalidPacketLen _ _ _ => "Invalid packet("
  | .outOfMemory _ => "Insufficient parser buffer size, required "

theorem starts {text : String} {e : ParserError} (h : Message text e) :
    ∃ r, text.toList = (kind e).toList ++ r := by
  cases e with
  | invalidField =>
    have h : text = _ := h
    exact ⟨_, by rw [h]; simp only [String.toList_append, List.append_assoc]; rfl⟩
  | outOfMemory =>
    obtain ⟨_, _, h⟩ := h
    exact ⟨_, by rw [h]; simp only [String.toList_append, List.append_assoc]; rfl⟩
  | invalidChecksum =>
    obtain ⟨_, _, _, _, h⟩ := h
    exact ⟨_, by rw [h]; simp only [String.toList_append, List.append_assoc]; rfl⟩
  | invalidPacketLen =>
    obtain ⟨_, _, _, _, h⟩ := h
    exact ⟨_, by rw [h]; simp only [String.toList_append, List.append_assoc]; rfl⟩

theorem differs {a b x y : List Char} (i : Nat)
    (h : a[i]?.any (fun c => b[i]?.any (· != c)) = true) : a ++ x ≠ b ++ y := by
  intro he
  cases ha : a[i]? with
  | none => rw [ha] at h; cases h
  | some c =>
    cases hb : b[i]? with
    | none => rw [ha, hb] at h; cases h
    | some d =>
      rw [ha, hb] at h
      have h1 : (a ++ x)[i]? = some c := by
        rw [List.getElem?_append_left (List.getElem?_eq_some_iff.mp ha).1, ha]
      have h2 : (b ++ y)[i]? = some d := by
        rw [List.getElem?_append_left (List.getElem?_eq_some_iff.mp hb).1, hb]
      rw [he, h2] at h1
      cases h1
      simp at h

/-- **C77**: errors with the same text are the same. -/
theorem c77_injective {e e' : ParserError} (hn : Named e) (hn' : Named e')
    (h : e.display = e'.display) : e = e' := by
  have dig : ∀ {b : Nat} {cs : List Char} {n : Nat}, Numeral b cs n →
      ∀ k ∈ cs, ∃ v, (k, v) ∈ digitTable := fun h => h.1.chars
  have comma : ¬ ∃ v, (',', v) ∈ digitTable := by
    rintro ⟨v, hv⟩
    have : ∀ x ∈ digitTable, x.1 ≠ ',' := by decide
    exact this _ hv rfl
  have space : ¬ ∃ v, (' ', v) ∈ digitTable := by
    rintro ⟨v, hv⟩
    have : ∀ x ∈ digitTable, x.1 ≠ ' ' := by decide
    exact this _ hv rfl
  have m := c77_message e
  have m' := c77_message e'
  rw [h] at m
  generalize e'.display = text at m m'
  have mm := m
  have mm' := m'
  cases e <;> cases e' <;> simp only [Message] at m m'
  case invalidChecksum.invalidChecksum a b a' b' =>
    obtain ⟨x, y, h1, h2, he⟩ := m
    obtain ⟨x', y', h3, h4, he'⟩ := m'
    replace he := congrArg String.toList (he.symm.trans he')
    simp only [String.toList_append, List.append_assoc] at he
    obtain ⟨hx, hy⟩ := split_at ',' (dig h1) (dig h3) (by decide +kernel) comma
      (List.append_cancel_left he)
    rw [hx] at h1
    rw [hy] at h2
    rw [UInt16.toNat_inj.mp (h1.1.unique h3.1), UInt16.toNat_inj.mp (h2.1.unique h4.1)]
  case invalidField.invalidField p f p' f' =>
    have he := congrArg String.toList (m.symm.trans m')
    simp only [String.toList_append, List.append_assoc] at he
    obtain ⟨h1, he⟩ := split_at ' ' hn.2 hn'.2 (by decide +kernel) (by decide)
      (List.append_cancel_left he)
    rw [String.toList_inj.mp h1, String.toList_inj.mp he]
  case invalidPacketLen.invalidPacketLen p a b p' a' b' =>
    obtain ⟨x, y, h1, h2, he⟩ := m
    obtain ⟨x', y', h3, h4, he'⟩ := m'
    replace he := congrArg String.toList (he.symm.trans he')
    simp only [String.toList_append, List.append_assoc] at he
    obtain ⟨hp, he⟩ := split_at ')' hn hn' (by decide +kernel) (by decide)
      (List.append_cancel_left he)
    obtain ⟨hx, hy⟩ := split_at ',' (dig h1) (dig h3) (by decide +kernel) comma he
    rw [hx] at h1
    rw [hy] at h2
    rw [String.toList_inj.mp hp, h1.1.unique h3.1, h2.1.unique h4.1]
  case outOfMemory.outOfMemory n n' =>
    obtain ⟨x, h1, he⟩ := m
    obtain ⟨x', h3, he'⟩ := m'
    replace he := congrArg String.toList (he.symm.trans he')
    simp only [String.toList_append, List.append_assoc] at he
    replace he := List.append_cancel_left he
    rw [← List.append_nil " bytes".toList] at he
    obtain ⟨hx, -⟩ := split_at ' ' (dig h1) (dig h3) (by decide +kernel) space he
    rw [hx] at h1
    rw [h1.1.unique h3.1]
  all_goals
    exfalso
    replace m := starts mm
    replace m' := starts mm'
    obtain ⟨r, hr⟩ := m
    obtain ⟨r', hr'⟩ := m'
    have he := hr.symm.trans hr'
    first
      | exact differs 0 (by simp only [kind]; decide +kernel) he
      | exact differs 2 (by simp only [kind]; decide +kernel) he
      | exact differs 8 (by simp only [kind]; decide +kernel) he

example : (ParserError.invalidPacketLen "NavSat" 8 7).display =
    "Invalid packet(NavSat) length, expect 8, got 7" ∧
    (ParserError.invalidChecksum 0x1a2b 0x0c).display =
      "Not valid packet's checksum, expect 1a2b, got c" := by decide +kernel

example : Named (.invalidPacketLen "NavSat" 8 7) ∧ Named (.invalidField "NavSat" "svs") :=
  ⟨show Identifier "NavSat" by decide +kernel,
    show Identifier "NavSat" ∧ Identifier "svs" by decide +kernel⟩

theorem framing_named {e : ParserError}
    (h : (∃ x y, e = .invalidChecksum x y) ∨ ∃ n, e = .outOfMemory n) : Named e := by
  rcases h with ⟨x, y, rfl⟩ | ⟨n, rfl⟩ <;> trivial

/-- **C77** for the parser with a growing buffer: two errors it reports (in the same or in different
runs) that read the same are the same. -/
theorem c77_vec_reported {M : Nat} (hM : 8176 + 8 ≤ M) (h h' : List (Bytes × Nat))
    (hv : VecHolds M crateDispatch h) (hv' : VecHolds M crateDispatch h') {rss q rss' q'}
    (hq : session M crateDispatch (vecParser M) h = some (.ok (rss, q)))
    (hq' : session M crateDispatch (vecParser M) h' = some (.ok (rss', q'))) {e e' : ParserError}
    (he : HasError rss e) (he' : HasError rss' e') (ht : e.display = e'.display) : e = e' :=
  c77_injective (framing_named (c09_vec_only_framing_errors hM h hv hq he))
    (framing_named (c09_vec_only_framing_errors hM h' hv' hq' he')) ht

/-- **C77** for parsers with fixed buffers. -/
theorem c77_flb_reported {M : Nat} (hM : 8176 + 8 ≤ M) (backing backing' : Bytes)
    (hb : backing.length ≤ M / 2) (hb' : backing'.length ≤ M / 2) (h h' : List (Bytes × Nat))
    (hs : Slices M h) (hs' : Slices M h') {rss q rss' q'}
    (hq : session M crateDispatch (flbParser M backing) h = some (.ok (rss, q)))
    (hq' : session M crateDispatch (flbParser M backing') h' = some (.ok (rss', q')))
    {e e' : ParserError} (he : HasError rss e) (he' : HasError rss' e')
    (ht : e.display = e'.display) : e = e' :=
  c77_injective (framing_named (c09_flb_only_framing_errors hM backing hb h hs hq he))
    (framing_named (c09_flb_only_framing_errors hM backing' hb' h' hs' hq' he')) ht

/-- **C77** for the errors of `validate`: the names of the crate's packets and fields are
identifiers. -/
theorem c77_validate {d : PackDesc} (hd : d ∈ Gen.recvPackets) {p : Bytes} {e : ParserError}
    (h : d.validate p = .ok (.error e)) : Named e := by
  have hn : ∀ d ∈ Gen.recvPackets, Identifier d.name ∧ ∀ f ∈ d.fields, Identifier f.getName := by
    decide +kernel
  obtain ⟨h1, h2⟩ := hn d hd
  obtain ⟨-, -, h3, h4, h5⟩ := c22_validate (recv_readable d hd).1 (recv_readable d hd).2 p
  rcases h5 e h with ⟨n, x, y, rfl⟩ | ⟨n, m, rfl⟩
  · rw [((h3 n x y).mp h).2.1]
    exact h1
  · obtain ⟨-, rfl, i, f, hf, rfl⟩ := (h4 n m).mp h
    exact ⟨h1, h2 f (List.mem_of_getElem? hf.1)⟩

example : Gen.navSat_ ∈ Gen.recvPackets ∧
    Gen.navSat_.validate (List.replicate 19 0) = .ok (.error (.invalidField "NavSat" "svs")) := by
  decide +kernel

/-- **C77**, the other errors of the crate. -/
theorem c77_date_time {e e' : DateTimeError} (h : e.display = e'.display) : e = e' := by
  revert h
  cases e <;> cases e' <;> decide

/-- **C77**, the texts of the other errors. -/
theorem c77_date_text (e : DateTimeError) : (e, e.display) ∈ dateMessages := by
  cases e <;> decide

theorem c77_mem_text {E : Type} (text : E → String) :
    (MemWriterError.notEnoughMem : MemWriterError E).display text = memMessage ∧
      ∀ e : E, (MemWriterError.custom e).display text = memPrefix ++ text e :=
  ⟨rfl, fun _ => rfl⟩

theorem c77_mem_writer {E : Type} {text : E → String} (ht : ∀ x y, text x = text y → x = y)
    {e e' : MemWriterError E} (h : e.display text = e'.display text) : e = e' := by
  have hd : ∀ y, MemWriterError.notEnoughMem.display text ≠ (MemWriterError.custom y).display text := by
    intro y hy
    have hy := congrArg String.toList hy
    simp only [MemWriterError.display, String.toList_append] at hy
    rw [← List.append_nil (String.toList "Not enough memory error")] at hy
    exact absurd hy (differs 0 (by decide +kernel))
  cases e with
  | notEnoughMem =>
    cases e' with
    | notEnoughMem => rfl
    | custom y => exact absurd h (hd y)
  | custom x =>
    cases e' with
    | notEnoughMem => exact absurd h.symm (hd x)
    | custom y =>
      have h := congrArg String.toList h
      simp only [MemWriterError.display, String.toList_append] at h
      rw [ht x y (String.toList_inj.mp (List.append_cancel_left h))]

example : (MemWriterError.custom 5).display (numeral 10) ≠
    MemWriterError.notEnoughMem.display (numeral 10) := by decide +kernel

end Ublox.Props
