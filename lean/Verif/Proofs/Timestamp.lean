import Verif.Spec.Timestamp
import Verif.Spec.SaveData
import Mathlib.Algebra.Order.BigOperators.Group.Finset
import Mathlib.Tactic.NormNum
import Mathlib.Tactic.IntervalCases

/-!
# Order of timestamps
-/

namespace CrowdDynamics

open Spec

/-! ## The calendar -/

theorem monthLength_le (y m : ℕ) : monthLength y m ≤ 31 := by
  unfold monthLength
  split_ifs <;> omega

theorem before_year {y m d : ℕ} (hm : m ≤ 12) (hm1 : 1 ≤ m) (hd : d ≤ monthLength y m) :
    ∑ i ∈ Finset.Ico 1 m, monthLength y i + d ≤ yearLength y := by
  unfold yearLength
  calc ∑ i ∈ Finset.Ico 1 m, monthLength y i + d
      ≤ ∑ i ∈ Finset.Ico 1 m, monthLength y i + monthLength y m := Nat.add_le_add_left hd _
    _ = ∑ i ∈ Finset.Ico 1 (m + 1), monthLength y i := (Finset.sum_Ico_succ_top hm1 _).symm
    _ ≤ _ := Finset.sum_le_sum_of_subset (Finset.Ico_subset_Ico_right (by omega))

theorem dayNumber_year {y m d y' m' d' : ℕ} (hm : m ≤ 12) (hm1 : 1 ≤ m) (hd : d ≤ monthLength y m)
    (hy : 1 ≤ y) (hd' : 1 ≤ d') (h : y < y') : dayNumber y m d < dayNumber y' m' d' := by
  unfold dayNumber
  have h1 := before_year hm hm1 hd
  have h2 : ∑ i ∈ Finset.Ico 1 y, yearLength i + yearLength y ≤ ∑ i ∈ Finset.Ico 1 y', yearLength i := by
    rw [← Finset.sum_Ico_succ_top hy]
    exact Finset.sum_le_sum_of_subset (Finset.Ico_subset_Ico_right (by omega))
  omega

theorem dayNumber_month {y m d m' d' : ℕ} (hm1 : 1 ≤ m) (hd : d ≤ monthLength y m)
    (hd' : 1 ≤ d') (h : m < m') : dayNumber y m d < dayNumber y m' d' := by
  unfold dayNumber
  have h2 : ∑ i ∈ Finset.Ico 1 m, monthLength y i + monthLength y m ≤
      ∑ i ∈ Finset.Ico 1 m', monthLength y i := by
    rw [← Finset.sum_Ico_succ_top hm1]
    exact Finset.sum_le_sum_of_subset (Finset.Ico_subset_Ico_right (by omega))
  omega

/-- One number after the other decides. -/
def tupleBefore : List (ℕ × ℕ) → Prop
  | [] => False
  | (a, b) :: l => a < b ∨ a = b ∧ tupleBefore l

/-- The parts of two times, side by side. -/
def timeParts (s t : UtcTime) : List (ℕ × ℕ) :=
  [(s.year, t.year), (s.month, t.month), (s.day, t.day), (s.hour, t.hour), (s.minute, t.minute),
    (s.second, t.second), (s.microsecond, t.microsecond)]

theorem instant_of_tuple {s t : UtcTime} (hs : Exists s) (ht : Exists t)
    (h : tupleBefore (timeParts s t)) : instant s < instant t := by
  obtain ⟨⟨a1, a2⟩, ⟨a3, a4⟩, ⟨a5, a6⟩, a7, a8, a9, a10⟩ := hs
  obtain ⟨⟨b1, b2⟩, ⟨b3, b4⟩, ⟨b5, b6⟩, b7, b8, b9, b10⟩ := ht
  have key : dayNumber s.year s.month s.day < dayNumber t.year t.month t.day →
      instant s < instant t := by
    unfold instant
    omega
  simp only [timeParts, tupleBefore, and_false, or_false] at h
  rcases h with h | ⟨hy, h⟩
  · exact key (dayNumber_year a4 a3 a6 a1 b5 h)
  rcases h with h | ⟨hm, h⟩
  · apply key
    rw [← hy]
    exact dayNumber_month a3 a6 b5 h
  rcases h with h | ⟨hd, h⟩
  · apply key
    rw [← hy, ← hm]
    unfold dayNumber
    omega
  unfold instant
  rw [← hy, ← hm, ← hd]
  omega

theorem tuple_total {s t : UtcTime} (h : s ≠ t) :
    tupleBefore (timeParts s t) ∨ tupleBefore (timeParts t s) := by
  rcases s with ⟨a1, a2, a3, a4, a5, a6, a7⟩
  rcases t with ⟨b1, b2, b3, b4, b5, b6, b7⟩
  simp only [ne_eq, UtcTime.mk.injEq, not_and] at h
  simp only [timeParts, tupleBefore, and_false, or_false]
  omega

/-! ## Texts -/

/-- Python's order of characters. -/
abbrev charBefore (a b : Char) : Prop := a.toNat < b.toNat

theorem lex_append_left (x : Text) {s t : Text} :
    List.Lex charBefore (x ++ s) (x ++ t) ↔ List.Lex charBefore s t := by
  induction x with
  | nil => rfl
  | cons c x ih =>
    rw [List.cons_append, List.cons_append, List.lex_cons_iff]
    exact ih

theorem lex_blocks {a b : Text} (hl : a.length = b.length) (s t : Text) :
    List.Lex charBefore (a ++ s) (b ++ t) ↔
      List.Lex charBefore a b ∨ a = b ∧ List.Lex charBefore s t := by
  induction a generalizing b with
  | nil =>
    have : b = [] := List.length_eq_zero_iff.1 hl.symm
    subst this
    simp
  | cons x a ih =>
    cases b with
    | nil => simp at hl
    | cons y b =>
      have hl' : a.length = b.length := by simpa using hl
      constructor
      · intro h
        rcases h with _ | h | h
        · exact .inl (.rel h)
        · rcases (ih hl').1 h with h | ⟨h', h⟩
          · exact .inl (.cons h)
          · exact .inr ⟨by rw [h'], h⟩
      · rintro (h | ⟨h, h'⟩)
        · rcases h with _ | h | h
          · exact .rel h
          · exact .cons ((ih hl').2 (.inl h))
        · injection h with h1 h2
          subst h1 h2
          exact .cons ((ih hl').2 (.inr ⟨rfl, h'⟩))

theorem padded_length (w n : ℕ) : (padded w n).length = w := by
  induction w generalizing n with
  | zero => rfl
  | succ w ih => rw [padded, List.length_append, ih]; rfl

theorem digitChar_toNat {d : ℕ} (h : d < 10) : (digitChar d).toNat = 48 + d := by
  interval_cases d <;> rfl

theorem padded_inj {w m n : ℕ} (hm : m < 10 ^ w) (hn : n < 10 ^ w) :
    padded w m = padded w n ↔ m = n := by
  refine ⟨fun h => ?_, fun h => by rw [h]⟩
  induction w generalizing m n with
  | zero => simp at hm hn; omega
  | succ w ih =>
    rw [padded, padded] at h
    obtain ⟨h1, h2⟩ := List.append_inj h (by rw [padded_length, padded_length])
    have e := ih (m := m / 10) (n := n / 10) (by rw [pow_succ] at hm; omega)
      (by rw [pow_succ] at hn; omega) h1
    injection h2 with h2
    have := congrArg Char.toNat h2
    rw [digitChar_toNat (Nat.mod_lt _ (by norm_num)), digitChar_toNat (Nat.mod_lt _ (by norm_num))]
      at this
    omega

theorem lex_padded {w m n : ℕ} (hm : m < 10 ^ w) (hn : n < 10 ^ w) :
    List.Lex charBefore (padded w m) (padded w n) ↔ m < n := by
  induction w generalizing m n with
  | zero =>
    simp at hm hn
    simp [padded]
    omega
  | succ w ih =>
    have hm' : m / 10 < 10 ^ w := by rw [pow_succ] at hm; omega
    have hn' : n / 10 < 10 ^ w := by rw [pow_succ] at hn; omega
    rw [padded, padded, lex_blocks (by rw [padded_length, padded_length]), ih hm' hn',
      padded_inj hm' hn']
    have : List.Lex charBefore [digitChar (m % 10)] [digitChar (n % 10)] ↔ m % 10 < n % 10 := by
      have hs : ∀ a b : Char, List.Lex charBefore [a] [b] ↔ a.toNat < b.toNat := by
        intro a b
        refine ⟨fun h => ?_, fun h => .rel h⟩
        rcases h with _ | h | h
        · exact h
        · cases h
      rw [hs, digitChar_toNat (Nat.mod_lt _ (by norm_num)), digitChar_toNat (Nat.mod_lt _ (by norm_num))]
      omega
    rw [this]
    omega

theorem lex_part {w m n : ℕ} (hm : m < 10 ^ w) (hn : n < 10 ^ w) (s t : Text) :
    List.Lex charBefore (padded w m ++ s) (padded w n ++ t) ↔
      m < n ∨ m = n ∧ List.Lex charBefore s t := by
  rw [lex_blocks (by rw [padded_length, padded_length]), lex_padded hm hn, padded_inj hm hn]

/-- The end of a timestamp. -/
def timeTail (us : ℕ) : Text :=
  if us = 0 then "+00:00".toList else '.' :: (padded 6 us ++ "+00:00".toList)

theorem lex_irrefl (s : Text) : ¬ List.Lex charBefore s s := by
  induction s with
  | nil => simp
  | cons c s ih =>
    rw [List.lex_cons_iff]
    exact ih

theorem lex_tail {m n : ℕ} (hm : m < 1000000) (hn : n < 1000000) :
    List.Lex charBefore (timeTail m) (timeTail n) ↔ m < n := by
  unfold timeTail
  by_cases h1 : m = 0 <;> by_cases h2 : n = 0
  · rw [if_pos h1, if_pos h2, h1, h2]
    simp [lex_irrefl]
  · rw [if_pos h1, if_neg h2]
    exact ⟨fun _ => by omega, fun _ => .rel (by decide)⟩
  · rw [if_neg h1, if_pos h2]
    refine ⟨fun h => ?_, fun _ => by omega⟩
    exfalso
    rcases h with _ | h | h
    exact absurd h (by decide)
  · rw [if_neg h1, if_neg h2, List.lex_cons_iff,
      lex_part (by norm_num; omega) (by norm_num; omega)]
    simp [lex_irrefl]

/-- A timestamp with a given character between date and time. -/
def strSep (c : Char) (t : UtcTime) : Text :=
  padded 4 t.year ++ '-' :: (padded 2 t.month ++ '-' :: (padded 2 t.day ++ c ::
    (padded 2 t.hour ++ ':' :: (padded 2 t.minute ++ ':' :: (padded 2 t.second ++
      timeTail t.microsecond)))))

theorem strUtc_eq (t : UtcTime) : strUtc t = strSep ' ' t := rfl

theorem Spec.Exists.small {t : UtcTime} (h : Exists t) :
    t.year < 10 ^ 4 ∧ t.month < 10 ^ 2 ∧ t.day < 10 ^ 2 ∧ t.hour < 10 ^ 2 ∧ t.minute < 10 ^ 2 ∧
      t.second < 10 ^ 2 ∧ t.microsecond < 1000000 := by
  obtain ⟨⟨a1, a2⟩, ⟨a3, a4⟩, ⟨a5, a6⟩, a7, a8, a9, a10⟩ := h
  have := monthLength_le t.year t.month
  omega

theorem lex_strSep {c : Char} {s t : UtcTime} (hs : Exists s) (ht : Exists t) :
    List.Lex charBefore (strSep c s) (strSep c t) ↔ tupleBefore (timeParts s t) := by
  obtain ⟨a1, a2, a3, a4, a5, a6, a7⟩ := hs.small
  obtain ⟨b1, b2, b3, b4, b5, b6, b7⟩ := ht.small
  unfold strSep
  rw [lex_part a1 b1, List.lex_cons_iff, lex_part a2 b2, List.lex_cons_iff, lex_part a3 b3,
    List.lex_cons_iff, lex_part a4 b4, List.lex_cons_iff, lex_part a5 b5, List.lex_cons_iff,
    lex_part a6 b6, lex_tail a7 b7]
  simp only [timeParts, tupleBefore, and_false, or_false]

theorem before_iff {c : Char} {s t : UtcTime} (hs : Exists s) (ht : Exists t) :
    List.Lex charBefore (strSep c s) (strSep c t) ↔ instant s < instant t := by
  rw [lex_strSep hs ht]
  refine ⟨instant_of_tuple hs ht, fun h => ?_⟩
  rcases eq_or_ne s t with rfl | hne
  · exact absurd h (lt_irrefl _)
  rcases tuple_total hne with h' | h'
  · exact h'
  · exact absurd (instant_of_tuple ht hs h') (by omega)

theorem digitChar_mem {c : Char} {w n : ℕ} (h : c ∈ padded w n) : 48 ≤ c.toNat ∧ c.toNat < 58 := by
  induction w generalizing n with
  | zero => cases h
  | succ w ih =>
    rw [padded, List.mem_append] at h
    rcases h with h | h
    · exact ih h
    · rw [List.mem_singleton.1 h, digitChar_toNat (Nat.mod_lt _ (by norm_num))]
      omega

theorem mem_tail {c : Char} {us : ℕ} (h : c ∈ timeTail us) :
    (48 ≤ c.toNat ∧ c.toNat < 59) ∨ c = '+' ∨ c = '.' := by
  have h0 : ∀ c ∈ "+00:00".toList, (48 ≤ c.toNat ∧ c.toNat < 59) ∨ c = '+' ∨ c = '.' := by decide
  unfold timeTail at h
  split_ifs at h
  · exact h0 c h
  · rcases List.mem_cons.1 h with h | h
    · exact .inr (.inr h)
    · rcases List.mem_append.1 h with h | h
      · have := digitChar_mem h
        exact .inl (by omega)
      · exact h0 c h

theorem map_noChar {f : Char → Char} {l : Text} (h : ∀ c ∈ l, f c = c) : l.map f = l := by
  conv_rhs => rw [← List.map_id l]
  exact List.map_congr_left fun c hc => h c hc

/-- The date and the time of a timestamp. -/
def strDate (t : UtcTime) : Text :=
  padded 4 t.year ++ '-' :: (padded 2 t.month ++ '-' :: padded 2 t.day)

/-- The time of a timestamp. -/
def strClock (t : UtcTime) : Text :=
  padded 2 t.hour ++ ':' :: (padded 2 t.minute ++ ':' :: (padded 2 t.second ++
      timeTail t.microsecond))

theorem strSep_split (c : Char) (t : UtcTime) : strSep c t = strDate t ++ c :: strClock t := by
  simp [strSep, strDate, strClock]

theorem strDate_mem {t : UtcTime} {c : Char} (h : c ∈ strDate t) : c ≠ ' ' ∧ c ≠ '_' := by
  have key : ∀ {w n : ℕ}, c ∈ padded w n → c ≠ ' ' ∧ c ≠ '_' := by
    intro w n h
    have := digitChar_mem h
    refine ⟨?_, ?_⟩ <;> rintro rfl <;> revert this <;> decide
  unfold strDate at h
  simp only [List.mem_append, List.mem_cons] at h
  rcases h with h | rfl | h | rfl | h
  · exact key h
  · decide
  · exact key h
  · decide
  · exact key h

theorem strClock_mem {t : UtcTime} {c : Char} (h : c ∈ strClock t) : c ≠ ' ' ∧ c ≠ '_' := by
  have key : ∀ {w n : ℕ}, c ∈ padded w n → c ≠ ' ' ∧ c ≠ '_' := by
    intro w n h
    have := digitChar_mem h
    refine ⟨?_, ?_⟩ <;> rintro rfl <;> revert this <;> decide
  unfold strClock at h
  simp only [List.mem_append, List.mem_cons] at h
  rcases h with h | rfl | h | rfl | h | h
  · exact key h
  · decide
  · exact key h
  · decide
  · exact key h
  · rcases mem_tail h with h | rfl | rfl
    · refine ⟨?_, ?_⟩ <;> rintro rfl <;> revert h <;> decide
    · decide
    · decide

theorem strUtc_isTimestamp (t : UtcTime) : IsTimestamp (strUtc t) :=
  ⟨strDate t, strClock t, strSep_split _ t, fun h => (strDate_mem h).1 rfl,
    fun h => (strClock_mem h).1 rfl, fun h => (strDate_mem h).2 rfl, fun h => (strClock_mem h).2 rfl⟩

theorem nameWithTimestamp_utc (name : Text) (t : UtcTime) :
    nameWithTimestamp name (strUtc t) = name ++ '_' :: strSep '_' t := by
  unfold nameWithTimestamp
  rw [strUtc_eq, strSep_split, strSep_split, List.map_append, List.map_cons,
    map_noChar (fun c hc => if_neg (strDate_mem hc).1),
    map_noChar (fun c hc => if_neg (strClock_mem hc).1)]
  rfl

theorem lookup_dictSet {V : Type} (d : Dict V) (key k : Text) (value : V) :
    (dictSet d key value).lookup k = if k = key then some value else d.lookup k := by
  unfold dictSet
  split_ifs with h1 h2 h2
  · subst h2
    induction d with
    | nil => simp at h1
    | cons e d ih =>
      rcases e with ⟨x, y⟩
      by_cases hx : x = k
      · subst hx
        simp
      · have hx' : ¬ k = x := fun h => hx h.symm
        simp only [List.any_cons, hx, decide_false, Bool.false_or] at h1
        simp only [List.map_cons, if_neg hx, List.lookup_cons, beq_eq_false_iff_ne.2 hx']
        exact ih h1
  · clear h1
    induction d with
    | nil => rfl
    | cons e d ih =>
      rcases e with ⟨x, y⟩
      rw [List.map_cons, List.lookup_cons]
      by_cases hx : x = key
      · subst hx
        rw [if_pos rfl, List.lookup_cons, beq_eq_false_iff_ne.2 h2]
        exact ih
      · rw [if_neg hx, List.lookup_cons, ih]
  · subst h2
    induction d with
    | nil => simp
    | cons e d ih =>
      rcases e with ⟨x, y⟩
      simp only [List.any_cons, Bool.or_eq_true, not_or] at h1
      have hx' : ¬ k = x := fun h => h1.1 (by simp [h])
      rw [List.cons_append, List.lookup_cons, beq_eq_false_iff_ne.2 hx']
      exact ih h1.2
  · induction d with
    | nil => simp [List.lookup_cons, beq_eq_false_iff_ne.2 h2]
    | cons e d ih =>
      rcases e with ⟨x, y⟩
      simp only [List.any_cons, Bool.or_eq_true, not_or] at h1
      rw [List.cons_append, List.lookup_cons, List.lookup_cons, ih h1.2]

end CrowdDynamics
