import Verif.Model.Debug
import Verif.Spec.Debug
import Verif.Props.Types
import Verif.Props.ErrorText

/-!
# C79: the debug texts of flags name every part and tell its bits
-/

namespace Ublox.Props
open Spec

/-- The text after the first entry. -/
def restText (es : List (String × String)) : String :=
  es.foldr (fun e t => ", " ++ e.1 ++ ": " ++ e.2 ++ t) " }"

theorem restText_eq (k v : String) (es : List (String × String)) :
    k ++ (": " ++ (v ++ restText es)) =
      commas (((k, v) :: es).map fun e => e.1 ++ ": " ++ e.2) ++ " }" := by
  induction es generalizing k v with
  | nil => simp only [restText, List.foldr_nil, List.map_cons, List.map_nil, commas,
      String.append_assoc]
  | cons e es ih =>
    have hc : restText (e :: es) = ", " ++ e.1 ++ ": " ++ e.2 ++ restText es := rfl
    rw [hc, List.map_cons, List.map_cons, commas]
    have := ih e.1 e.2
    rw [List.map_cons] at this
    simp only [String.append_assoc] at this ⊢
    rw [this]

theorem debugStruct_shown (name : String) {es : List (String × String)} (h : es ≠ []) :
    Shown name es (debugStruct name es) := by
  obtain ⟨⟨k, v⟩, rest, rfl⟩ := List.exists_cons_of_ne_nil h
  show name ++ " { " ++ k ++ ": " ++ v ++ restText rest = _
  have := restText_eq k v rest
  simp only [String.append_assoc] at this ⊢
  rw [this]

/-- Texts without a comma or a space. -/
def Plain (s : String) : Prop := ∀ c ∈ s.toList, c ≠ ',' ∧ c ≠ ' '

instance (s : String) : Decidable (Plain s) := inferInstanceAs (Decidable (∀ _ ∈ _, _))

theorem restText_inj {es es' : List (String × String)} (hk : es.map Prod.fst = es'.map Prod.fst)
    (hp : ∀ e ∈ es, Plain e.2) (hp' : ∀ e ∈ es', Plain e.2) {v v' : String} (hv : Plain v)
    (hv' : Plain v') (h : v ++ restText es = v' ++ restText es') : v = v' ∧ es = es' := by
  induction es generalizing es' v v' with
  | nil =>
    cases es' with
    | cons e es' => cases hk
    | nil =>
      have h2 := congrArg String.toList h
      simp only [String.toList_append] at h2
      have := (List.append_left_inj _).mp h2
      exact ⟨String.toList_inj.mp this, rfl⟩
  | cons e es ih =>
    cases es' with
    | nil => cases hk
    | cons e' es' =>
      simp only [List.map_cons, List.cons.injEq] at hk
      have hc : ∀ (e : String × String) es,
          restText (e :: es) = ", " ++ e.1 ++ ": " ++ e.2 ++ restText es := fun _ _ => rfl
      rw [hc, hc, hk.1] at h
      have h2 := congrArg String.toList h
      simp only [String.toList_append, List.append_assoc] at h2
      obtain ⟨h3, h4⟩ := split_at (P := fun c => c ≠ ',' ∧ c ≠ ' ') ',' hv hv' rfl (by decide) h2
      have h5 := (List.append_right_inj _).mp h4
      have h6 := (List.append_right_inj _).mp h5
      rw [← String.toList_append, ← String.toList_append] at h6
      obtain ⟨h7, h8⟩ := ih hk.2 (fun x hx => hp x (List.mem_cons_of_mem _ hx))
        (fun x hx => hp' x (List.mem_cons_of_mem _ hx)) (hp e List.mem_cons_self)
        (hp' e' List.mem_cons_self) (String.toList_inj.mp h6)
      refine ⟨String.toList_inj.mp h3, ?_⟩
      rw [h8]
      exact congrArg (· :: es') (Prod.ext hk.1 h7)

/-- Texts with the same names tell their entries. -/
theorem debugStruct_inj (name : String) {es es' : List (String × String)}
    (hk : es.map Prod.fst = es'.map Prod.fst) (hp : ∀ e ∈ es, Plain e.2)
    (hp' : ∀ e ∈ es', Plain e.2) (h : debugStruct name es = debugStruct name es') : es = es' := by
  cases es with
  | nil =>
    cases es' with
    | nil => rfl
    | cons e es' => cases hk
  | cons e es =>
    cases es' with
    | nil => cases hk
    | cons e' es' =>
      simp only [List.map_cons, List.cons.injEq] at hk
      have hc : ∀ (e : String × String) es,
          debugStruct name (e :: es) = name ++ " { " ++ e.1 ++ ": " ++ e.2 ++ restText es :=
        fun _ _ => rfl
      rw [hc, hc, hk.1] at h
      have h2 := congrArg String.toList h
      simp only [String.toList_append, List.append_assoc] at h2
      iterate 4 replace h2 := (List.append_right_inj _).mp h2
      rw [← String.toList_append, ← String.toList_append] at h2
      obtain ⟨h7, h8⟩ := restText_inj hk.2 (fun x hx => hp x (List.mem_cons_of_mem _ hx))
        (fun x hx => hp' x (List.mem_cons_of_mem _ hx)) (hp e List.mem_cons_self)
        (hp' e' List.mem_cons_self) (String.toList_inj.mp h2)
      rw [h8]
      exact congrArg (· :: es') (Prod.ext hk.1 h7)

theorem field_lt (w i n : Nat) : field w i n < 2 ^ n := Nat.mod_lt _ (Nat.two_pow_pos _)

theorem bit_eq_iff (w v i : Nat) : bit w i = bit v i ↔ w / 2 ^ i % 2 = v / 2 ^ i % 2 := by
  unfold bit
  rw [Bool.eq_iff_iff, beq_iff_eq, beq_iff_eq]
  omega

/-- The entries that a list of parts shows of a word. -/
def shownEntries (ps : List FlagPart) (w : Nat) : List (String × String) :=
  ps.map fun p => (p.name, p.shows w)

theorem debugBool_bit (w i : Nat) : debugBool (bit w i) = flagText (field w i 1) := by
  unfold bit field debugBool
  rcases Nat.mod_two_eq_zero_or_one (w / 2 ^ i) with h | h <;> rw [Nat.pow_one, h] <;> rfl

theorem mapMatching_text : ∀ n < 4, (mapMatchingOf n).debug = mapMatchingText n := by decide +kernel

theorem quality_text : ∀ n < 8, (qualityOf n).debug = qualityText n := by decide +kernel

theorem health_text : ∀ n < 4, (healthOf n).debug = healthText n := by decide +kernel

theorem orbit_text : ∀ n < 8, (orbitSourceOf n).debug = orbitText n := by decide +kernel

theorem fixStatus_debug (x : UInt8) :
    FixStatusInfo.debug x = .ok (debugStruct "FixStatusInfo" (shownEntries fixStatusParts x.toNat)) := by
  obtain ⟨h1, h2⟩ := c26_fixStatusInfo x
  have hm : field x.toNat 6 2 < 4 := Nat.mod_lt _ (by decide)
  rw [FixStatusInfo.debug, h2, h1, debugBool_bit]
  show Except.ok _ = _
  rw [mapMatching_text _ hm]
  rfl

theorem svFlags_debug (x : UInt32) :
    NavSatSvFlags.debug x = .ok (debugStruct "NavSatSvFlags" (shownEntries svFlagsParts x.toNat)) := by
  obtain ⟨h1, h2, h3, h4, h5, h6, h7, h8, h9, h10, h11, h12, h13, h14, h15, h16, h17⟩ :=
    c26_navSatSvFlags x
  rw [NavSatSvFlags.debug, h1, h2, h3, h4, h5, h6, h7, h8, h9, h10, h11, h12, h13, h14, h15, h16,
    h17]
  simp only [debugBool_bit]
  show Except.ok _ = _
  rw [quality_text _ (field_lt _ _ _), health_text _ (field_lt _ _ _),
    orbit_text _ (field_lt _ _ _)]
  rfl

/-- C79: the debug text of NAV-STATUS `fixStat`. -/
theorem c79_fix_status (x : UInt8) : ∃ text, FixStatusInfo.debug x = .ok text ∧
    Shown "FixStatusInfo" (fixStatusParts.map fun p => (p.name, p.shows x.toNat)) text :=
  ⟨_, fixStatus_debug x, debugStruct_shown _ (by simp [shownEntries, fixStatusParts])⟩

/-- C79: the debug text of NAV-SAT `flags`. -/
theorem c79_sv_flags (x : UInt32) : ∃ text, NavSatSvFlags.debug x = .ok text ∧
    Shown "NavSatSvFlags" (svFlagsParts.map fun p => (p.name, p.shows x.toNat)) text :=
  ⟨_, svFlags_debug x, debugStruct_shown _ (by simp [shownEntries, svFlagsParts])⟩

theorem shownEntries_names (ps : List FlagPart) (w : Nat) :
    (shownEntries ps w).map Prod.fst = ps.map FlagPart.name := by
  simp [shownEntries, Function.comp_def]

theorem shownEntries_plain (ps : List FlagPart)
    (h : ∀ p ∈ ps, ∀ n < 2 ^ p.width, Plain (p.text n)) (w : Nat) :
    ∀ e ∈ shownEntries ps w, Plain e.2 := by
  intro e he
  obtain ⟨p, hp, rfl⟩ := List.mem_map.mp he
  exact h p hp _ (Nat.mod_lt _ (Nat.two_pow_pos _))

theorem shown_inj {name : String} {ps : List FlagPart}
    (h : ∀ p ∈ ps, ∀ n < 2 ^ p.width, Plain (p.text n)) {w w' : Nat} :
    (Except.ok (debugStruct name (shownEntries ps w)) : R String) =
      .ok (debugStruct name (shownEntries ps w')) ↔ ∀ p ∈ ps, p.shows w = p.shows w' := by
  constructor
  · intro he p hp
    have := debugStruct_inj name (by simp only [shownEntries_names]) (shownEntries_plain ps h w)
      (shownEntries_plain ps h w') (Except.ok.inj he)
    have := List.map_inj_left.mp this p hp
    exact (Prod.mk.inj this).2
  · intro he
    rw [show shownEntries ps w = shownEntries ps w' from
      List.map_inj_left.mpr fun p hp => by rw [he p hp]]

theorem fixStatus_plain : ∀ p ∈ fixStatusParts, ∀ n < 2 ^ p.width, Plain (p.text n) := by
  decide +kernel

theorem svFlags_plain : ∀ p ∈ svFlagsParts, ∀ n < 2 ^ p.width, Plain (p.text n) := by
  decide +kernel

theorem flagText_inj {a b : Nat} (ha : a < 2) (hb : b < 2) : flagText a = flagText b ↔ a = b := by
  have : ∀ a < 2, ∀ b < 2, flagText a = flagText b ↔ a = b := by decide +kernel
  exact this a ha b hb

theorem mapMatchingText_inj : ∀ a < 4, ∀ b < 4, mapMatchingText a = mapMatchingText b ↔ a = b := by
  decide +kernel

theorem qualityText_inj : ∀ a < 8, ∀ b < 8,
    qualityText a = qualityText b ↔ min a 5 = min b 5 := by decide +kernel

theorem healthText_inj : ∀ a < 4, ∀ b < 4, healthText a = healthText b ↔ a = b := by
  decide +kernel

theorem orbitText_inj : ∀ a < 8, ∀ b < 8, orbitText a = orbitText b ↔ a = b := by
  decide +kernel

/-- C79: two values of `fixStat` have the same debug text just if they agree in bits 0, 6 and 7. -/
theorem c79_fix_status_same (x y : UInt8) : FixStatusInfo.debug x = FixStatusInfo.debug y ↔
    ∀ i, i = 0 ∨ i = 6 ∨ i = 7 → bit x.toNat i = bit y.toNat i := by
  rw [fixStatus_debug, fixStatus_debug, shown_inj fixStatus_plain]
  simp only [fixStatusParts, List.mem_cons, List.not_mem_nil, or_false, forall_eq_or_imp, forall_eq,
    FlagPart.shows]
  rw [flagText_inj (field_lt _ _ _) (field_lt _ _ _),
    mapMatchingText_inj _ (field_lt _ _ _) _ (field_lt _ _ _)]
  have e7 : ∀ w : Nat, w / 128 = w / 64 / 2 := fun w => by omega
  simp only [bit_eq_iff, field, Nat.reducePow, Nat.div_one, e7]
  generalize x.toNat / 64 = a
  generalize y.toNat / 64 = b
  omega

/-- C79: two values of the satellite `flags` have the same debug text just if they agree in every
documented bit; only the quality indicators 5, 6 and 7 are shown alike. -/
theorem c79_sv_flags_same (x y : UInt32) : NavSatSvFlags.debug x = NavSatSvFlags.debug y ↔
    min (field x.toNat 0 3) 5 = min (field y.toNat 0 3) 5 ∧
    ∀ i, 3 ≤ i → i ≤ 22 → i ≠ 15 → bit x.toNat i = bit y.toNat i := by
  rw [svFlags_debug, svFlags_debug, shown_inj svFlags_plain]
  have hf : ∀ i, flagText (field x.toNat i 1) = flagText (field y.toNat i 1) ↔
      bit x.toNat i = bit y.toNat i := by
    intro i
    rw [flagText_inj (field_lt _ _ _) (field_lt _ _ _)]
    rw [bit_eq_iff]
    rfl
  simp only [svFlagsParts, List.mem_cons, List.not_mem_nil, or_false, forall_eq_or_imp, forall_eq,
    FlagPart.shows, hf]
  rw [qualityText_inj _ (field_lt _ _ _) _ (field_lt _ _ _),
    healthText_inj _ (field_lt _ _ _) _ (field_lt _ _ _),
    orbitText_inj _ (field_lt _ _ _) _ (field_lt _ _ _)]
  have h4 : field x.toNat 4 2 = field y.toNat 4 2 ↔
      bit x.toNat 4 = bit y.toNat 4 ∧ bit x.toNat 5 = bit y.toNat 5 := by
    simp only [bit_eq_iff, field, Nat.reducePow]
    omega
  have h8 : field x.toNat 8 3 = field y.toNat 8 3 ↔
      bit x.toNat 8 = bit y.toNat 8 ∧ bit x.toNat 9 = bit y.toNat 9 ∧
        bit x.toNat 10 = bit y.toNat 10 := by
    simp only [bit_eq_iff, field, Nat.reducePow]
    omega
  rw [h4, h8]
  constructor
  · rintro ⟨a, h3, ⟨h4, h5⟩, h6, h7, ⟨h8, h9, h10⟩, h11, h12, h13, h14, h16, h17, h18, h19, h20, h21,
      h22⟩
    refine ⟨a, fun i hi1 hi2 hi3 => ?_⟩
    have hi : i = 3 ∨ i = 4 ∨ i = 5 ∨ i = 6 ∨ i = 7 ∨ i = 8 ∨ i = 9 ∨ i = 10 ∨ i = 11 ∨ i = 12 ∨
      i = 13 ∨ i = 14 ∨ i = 16 ∨ i = 17 ∨ i = 18 ∨ i = 19 ∨ i = 20 ∨ i = 21 ∨ i = 22 := by omega
    rcases hi with rfl | rfl | rfl | rfl | rfl | rfl | rfl | rfl | rfl | rfl | rfl | rfl | rfl |
      rfl | rfl | rfl | rfl | rfl | rfl <;> assumption
  · rintro ⟨a, h⟩
    refine ⟨a, ?_⟩
    have h' : ∀ i, (decide (3 ≤ i) && decide (i ≤ 22) && i != 15) = true →
        bit x.toNat i = bit y.toNat i := by
      intro i hi
      simp only [Bool.and_eq_true, decide_eq_true_eq, bne_iff_ne, ne_eq] at hi
      exact h i hi.1.1 hi.1.2 hi.2
    refine ⟨h' 3 rfl, ⟨h' 4 rfl, h' 5 rfl⟩, h' 6 rfl, h' 7 rfl, ⟨h' 8 rfl, h' 9 rfl, h' 10 rfl⟩,
      h' 11 rfl, h' 12 rfl, h' 13 rfl, h' 14 rfl, h' 16 rfl, h' 17 rfl, h' 18 rfl, h' 19 rfl,
      h' 20 rfl, h' 21 rfl, h' 22 rfl⟩

example : FixStatusInfo.debug 0xC1 =
    .ok "FixStatusInfo { has_pr_prr_correction: true, map_matching: Dr }" := by decide +kernel

example : NavSatSvFlags.debug 0x00010025 ≠ NavSatSvFlags.debug 0x00020025 ∧
    NavSatSvFlags.debug 0x80018025 = NavSatSvFlags.debug 0x00010027 := by
  rw [Ne, c79_sv_flags_same, c79_sv_flags_same]
  constructor
  · intro h
    have := h.2 16 (by decide) (by decide) (by decide)
    exact absurd this (by decide)
  · refine ⟨by decide, ?_⟩
    have : ∀ i < 23, 3 ≤ i → i ≠ 15 →
      bit (0x80018025 : UInt32).toNat i = bit (0x00010027 : UInt32).toNat i := by decide +kernel
    exact fun i h1 h2 h3 => this i (by omega) h1 h3

end Ublox.Props
