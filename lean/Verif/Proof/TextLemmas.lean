import Verif.Model.Text

/-!
# Byte offsets
-/

namespace Ressa

@[simp] theorem blen_nil : blen [] = 0 := rfl
@[simp] theorem blen_cons (c : Char) (t : Txt) : blen (c :: t) = c.utf8Size + blen t := rfl

@[simp] theorem blen_append (a b : Txt) : blen (a ++ b) = blen a + blen b := by
  induction a with
  | nil => simp
  | cons c a ih => simp [ih]; omega

theorem blen_eq_zero {t : Txt} : blen t = 0 ↔ t = [] := by
  cases t with
  | nil => simp
  | cons c t => have := c.utf8Size_pos; simp; omega

theorem length_le_blen (t : Txt) : t.length ≤ blen t := by
  induction t with
  | nil => simp
  | cons c t ih => have := c.utf8Size_pos; simp; omega

theorem append_inj_blen {p u p' u' : Txt} (h : p ++ u = p' ++ u') (hl : blen p = blen p') :
    p = p' ∧ u = u' := by
  induction p generalizing p' with
  | nil =>
    have : p' = [] := blen_eq_zero.1 hl.symm
    subst this
    exact ⟨rfl, h⟩
  | cons c p ih =>
    cases p' with
    | nil => have := c.utf8Size_pos; simp at hl; omega
    | cons d p' =>
      simp only [List.cons_append, List.cons.injEq] at h
      obtain ⟨rfl, h⟩ := h
      simp only [blen_cons, Nat.add_left_cancel_iff] at hl
      obtain ⟨rfl, rfl⟩ := ih h hl
      exact ⟨rfl, rfl⟩

theorem dropB_iff {t u : Txt} {n : Nat} :
    dropB t n = some u ↔ ∃ p, t = p ++ u ∧ blen p = n := by
  induction t generalizing n with
  | nil =>
    cases n with
    | zero =>
      simp only [dropB, Option.some.injEq]
      constructor
      · rintro rfl; exact ⟨[], rfl, rfl⟩
      · rintro ⟨p, h, _⟩; simp at h; exact h.2.symm
    | succ n =>
      simp only [dropB, reduceCtorEq, false_iff]
      rintro ⟨p, h, hb⟩
      simp at h
      rw [h.1] at hb
      simp at hb
  | cons c t ih =>
    cases n with
    | zero =>
      simp only [dropB, Option.some.injEq]
      constructor
      · rintro rfl; exact ⟨[], rfl, rfl⟩
      · rintro ⟨p, h, hb⟩
        rw [blen_eq_zero] at hb
        subst hb
        exact h
    | succ n =>
      simp only [dropB]
      split
      · next hc =>
        rw [ih]
        constructor
        · rintro ⟨p, rfl, hb⟩
          exact ⟨c :: p, rfl, by simp; omega⟩
        · rintro ⟨p, h, hb⟩
          cases p with
          | nil => simp at hb
          | cons d p =>
            simp only [List.cons_append, List.cons.injEq] at h
            obtain ⟨rfl, rfl⟩ := h
            simp at hb
            exact ⟨p, rfl, by omega⟩
      · next hc =>
        simp only [reduceCtorEq, false_iff]
        rintro ⟨p, h, hb⟩
        cases p with
        | nil => simp at hb
        | cons d p =>
          simp only [List.cons_append, List.cons.injEq] at h
          obtain ⟨rfl, rfl⟩ := h
          simp at hb
          omega

theorem takeB_iff {t p : Txt} {n : Nat} :
    takeB t n = some p ↔ ∃ u, t = p ++ u ∧ blen p = n := by
  induction t generalizing n p with
  | nil =>
    cases n with
    | zero =>
      simp only [takeB, Option.some.injEq]
      constructor
      · rintro rfl; exact ⟨[], rfl, rfl⟩
      · rintro ⟨u, h, _⟩; simp at h; exact h.1.symm
    | succ n =>
      simp only [takeB, reduceCtorEq, false_iff]
      rintro ⟨u, h, hb⟩
      simp at h
      rw [h.1] at hb
      simp at hb
  | cons c t ih =>
    cases n with
    | zero =>
      simp only [takeB, Option.some.injEq]
      constructor
      · rintro rfl; exact ⟨c :: t, rfl, rfl⟩
      · rintro ⟨u, h, hb⟩
        exact (blen_eq_zero.1 hb).symm
    | succ n =>
      simp only [takeB]
      split
      · next hc =>
        simp only [Option.map_eq_some_iff]
        constructor
        · rintro ⟨q, hq, rfl⟩
          obtain ⟨u, rfl, hb⟩ := ih.1 hq
          exact ⟨u, rfl, by simp; omega⟩
        · rintro ⟨u, h, hb⟩
          cases p with
          | nil => simp at hb
          | cons d p =>
            simp only [List.cons_append, List.cons.injEq] at h
            obtain ⟨rfl, rfl⟩ := h
            simp at hb
            exact ⟨p, ih.2 ⟨u, rfl, by omega⟩, rfl⟩
      · next hc =>
        simp only [reduceCtorEq, false_iff]
        rintro ⟨u, h, hb⟩
        cases p with
        | nil => simp at hb
        | cons d p =>
          simp only [List.cons_append, List.cons.injEq] at h
          obtain ⟨rfl, rfl⟩ := h
          simp at hb
          omega

/-- A slice is the middle of a split of the text at the two offsets. -/
theorem sliceB_iff {t m : Txt} {a b : Nat} :
    sliceB t a b = some m ↔ ∃ p u, t = p ++ m ++ u ∧ blen p = a ∧ blen p + blen m = b := by
  unfold sliceB
  split
  · next h =>
    simp only [Option.bind_eq_some_iff]
    constructor
    · rintro ⟨w, h1, h2⟩
      obtain ⟨p, rfl, rfl⟩ := dropB_iff.1 h1
      obtain ⟨u, rfl, hb⟩ := takeB_iff.1 h2
      exact ⟨p, u, by simp, rfl, by omega⟩
    · rintro ⟨p, u, rfl, rfl, rfl⟩
      exact ⟨m ++ u, dropB_iff.2 ⟨p, by simp, rfl⟩, takeB_iff.2 ⟨u, rfl, by omega⟩⟩
  · next h =>
    simp only [reduceCtorEq, false_iff]
    rintro ⟨p, u, rfl, rfl, rfl⟩
    omega

/-- An offset is a character boundary. -/
def IsBoundary (t : Txt) (n : Nat) : Prop := ∃ p u, t = p ++ u ∧ blen p = n

theorem split_le {p u p' u' : Txt} (h : p ++ u = p' ++ u') (hl : blen p ≤ blen p') :
    ∃ m, p' = p ++ m ∧ u = m ++ u' := by
  induction p generalizing p' with
  | nil => exact ⟨p', rfl, h⟩
  | cons c p ih =>
    cases p' with
    | nil => have := c.utf8Size_pos; simp at hl; omega
    | cons d p' =>
      simp only [List.cons_append, List.cons.injEq] at h
      obtain ⟨rfl, h⟩ := h
      simp only [blen_cons, Nat.add_le_add_iff_left] at hl
      obtain ⟨m, rfl, rfl⟩ := ih h hl
      exact ⟨m, rfl, rfl⟩

/-- Slicing succeeds between boundaries. -/
theorem sliceB_of_boundary {t : Txt} {a b : Nat} (ha : IsBoundary t a) (hb : IsBoundary t b)
    (h : a ≤ b) : ∃ m, sliceB t a b = some m := by
  obtain ⟨p, u, rfl, rfl⟩ := ha
  obtain ⟨p', u', e, rfl⟩ := hb
  obtain ⟨m, rfl, rfl⟩ := split_le e h
  exact ⟨m, sliceB_iff.2 ⟨p, u', by simp, rfl, by simp⟩⟩

theorem sliceB_boundary {t m : Txt} {a b : Nat} (h : sliceB t a b = some m) :
    IsBoundary t a ∧ IsBoundary t b ∧ a ≤ b := by
  obtain ⟨p, u, rfl, rfl, rfl⟩ := sliceB_iff.1 h
  exact ⟨⟨p, m ++ u, by simp, rfl⟩, ⟨p ++ m, u, by simp, by simp⟩, by omega⟩

/-- Two adjacent slices. -/
theorem sliceB_append {t m n : Txt} {a b c : Nat} (h : sliceB t a b = some m)
    (k : sliceB t b c = some n) : sliceB t a c = some (m ++ n) := by
  obtain ⟨p, u, rfl, rfl, rfl⟩ := sliceB_iff.1 h
  obtain ⟨p', u', e, hp, rfl⟩ := sliceB_iff.1 k
  rw [List.append_assoc p' n u'] at e
  obtain ⟨h1, h2⟩ := append_inj_blen (p' := p') e (by simp [hp])
  subst h1 h2
  exact sliceB_iff.2 ⟨p, u', by simp, rfl, by simp; omega⟩

theorem sliceB_none_iff {t : Txt} {a b : Nat} :
    sliceB t a b = none ↔ ¬ (IsBoundary t a ∧ IsBoundary t b ∧ a ≤ b) := by
  constructor
  · rintro h ⟨h1, h2, h3⟩
    obtain ⟨m, hm⟩ := sliceB_of_boundary h1 h2 h3
    rw [h] at hm; simp at hm
  · intro h
    cases hs : sliceB t a b with
    | none => rfl
    | some m => exact absurd (sliceB_boundary hs) h

/-! ## Line terminators -/

theorem countCrlf_le (t : Txt) : countCrlf t ≤ t.countP isLineTerm := by
  fun_induction countCrlf t with
  | case1 => simp
  | case2 t ih => simp [isLineTerm]; omega
  | case3 c t h ih => rw [List.countP_cons]; omega

end Ressa
