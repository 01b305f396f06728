import Verif.Spec.Lines
import Verif.Model.State
import Verif.Proof.TextLemmas
import Verif.Spec.KernelRfl

/-!
# The line table (C12, C13)
-/

namespace Ressa

/-! ## C12 -/

/-- The rows of a table: the first starts at `ls`, and each starts right after the end of the one
before. -/
inductive Contiguous : Nat → List Line → Prop
  | nil {n} : Contiguous n []
  | cons {n m ls} : n ≤ m + 1 → Contiguous (m + 1) ls → Contiguous n (⟨n, m⟩ :: ls)

/-- The rows that end right before each of the given line starts. -/
def rowsOf : Nat → List Nat → List Line
  | _, [] => []
  | ls, n :: ns => ⟨ls, n - 1⟩ :: rowsOf n ns

theorem CrOk.tail {c : Char} {t : Txt} (h : CrOk (c :: t)) : CrOk t :=
  fun a b e => h (c :: a) b (by simp [e])

/-- The line starts the table records. -/
theorem getLinesGo_rows : ∀ (t : Txt) (ls pos : Nat), ls ≤ pos →
    ∃ ns, getLinesGo t ls pos = (rowsOf ls ns, ns.getLast?.getD ls) ∧
      (ls :: ns).Pairwise (· < ·) ∧ (∀ n ∈ ns, pos < n ∧ n ≤ pos + blen t)
  | [], ls, pos, h => ⟨[], rfl, by simp, by simp⟩
  | c :: t, ls, pos, h => by
    have hc := c.utf8Size_pos
    have row : ∀ stop, pos ≤ stop → stop + 1 = pos + c.utf8Size →
        ∃ ns, ((⟨ls, stop⟩ : Line) :: (getLinesGo t (stop + 1) (pos + c.utf8Size)).1,
            (getLinesGo t (stop + 1) (pos + c.utf8Size)).2) =
            (rowsOf ls ns, ns.getLast?.getD ls) ∧
          (ls :: ns).Pairwise (· < ·) ∧ (∀ n ∈ ns, pos < n ∧ n ≤ pos + blen (c :: t)) := by
      intro stop h1 h2
      obtain ⟨ns, e, hp, hn⟩ := getLinesGo_rows t (stop + 1) (pos + c.utf8Size) (by omega)
      refine ⟨(stop + 1) :: ns, ?_, ?_, ?_⟩
      · rw [e]
        simp [rowsOf, List.getLast?_cons]
      · simp only [List.pairwise_cons] at hp ⊢
        refine ⟨?_, hp⟩
        intro n hn'
        rcases List.mem_cons.1 hn' with rfl | hn'
        · omega
        · have := hp.1 n hn'; omega
      · intro n hn'
        rcases List.mem_cons.1 hn' with rfl | hn'
        · simp; omega
        · have := hn n hn'; simp; omega
    have skip : ∃ ns, getLinesGo t ls (pos + c.utf8Size) = (rowsOf ls ns, ns.getLast?.getD ls) ∧
          (ls :: ns).Pairwise (· < ·) ∧ (∀ n ∈ ns, pos < n ∧ n ≤ pos + blen (c :: t)) := by
      obtain ⟨ns, e, hp, hn⟩ := getLinesGo_rows t ls (pos + c.utf8Size) (by omega)
      exact ⟨ns, e, hp, fun n h => by have := hn n h; simp; omega⟩
    unfold getLinesGo
    dsimp only
    split
    · next hr =>
      split
      · split
        · exact skip
        · exact row pos (Nat.le_refl _) (by subst hr; rfl)
      · exact skip
    · split
      · next hr => exact row pos (Nat.le_refl _) (by subst hr; rfl)
      · split
        · next hr =>
          exact row (pos + 2) (by omega) (by rcases hr with rfl | rfl <;> rfl)
        · exact skip

theorem rowsOf_contiguous : ∀ (ns : List Nat) (ls stop : Nat), (ls :: ns).Pairwise (· < ·) →
    ns.getLast?.getD ls ≤ stop + 1 →
    Contiguous ls (rowsOf ls ns ++ [⟨ns.getLast?.getD ls, stop⟩])
  | [], ls, stop, _, h => .cons h .nil
  | n :: ns, ls, stop, hp, h => by
    simp only [List.pairwise_cons] at hp
    have hn := hp.1 n (by simp)
    have e : n = (n - 1) + 1 := by omega
    simp only [rowsOf, List.cons_append, List.getLast?_cons, Option.getD_some] at h ⊢
    refine .cons (by omega) ?_
    rw [← e]
    exact rowsOf_contiguous ns n stop (List.pairwise_cons.2 hp.2) h

/-- C12: the table of every text starts at offset 0, has no gaps and no overlaps, and ends with
the last byte. -/
theorem lines_cover (text : Txt) :
    Contiguous 0 (getLines text) ∧ (getLines text).getLast?.map (·.stop) = some (blen text - 1) := by
  obtain ⟨ns, e, hp, hn⟩ := getLinesGo_rows text 0 0 (Nat.le_refl _)
  unfold getLines
  rw [e]
  constructor
  · refine rowsOf_contiguous ns 0 _ hp ?_
    cases h : ns.getLast? with
    | none => simp
    | some n => have := hn n (List.mem_of_getLast? h); simp; omega
  · simp

theorem lineStarts_cons {c : Char} {t : Txt} {pos : Nat} (h : ¬ (c = '\r' ∧ ∃ u, t = '\n' :: u)) :
    lineStarts (c :: t) pos =
      if c = '\n' ∨ c = '\r' ∨ c = '\u2028' ∨ c = '\u2029' then
        (pos + c.utf8Size) :: lineStarts t (pos + c.utf8Size)
      else lineStarts t (pos + c.utf8Size) := by
  rw [lineStarts]
  intro u hu hc
  exact h ⟨hu, u, hc⟩

theorem getLinesGo_eq : ∀ (t : Txt) (ls pos : Nat), CrOk t →
    getLinesGo t ls pos = (rowsOf ls (lineStarts t pos), (lineStarts t pos).getLast?.getD ls)
  | [], ls, pos, _ => rfl
  | c :: t, ls, pos, h => by
    have ih := fun ls pos => getLinesGo_eq t ls pos h.tail
    by_cases hcr : c = '\r' ∧ ∃ u, t = '\n' :: u
    · obtain ⟨rfl, u, rfl⟩ := hcr
      unfold getLinesGo
      have e : takeB ('\r' :: '\n' :: u) 2 = some ['\r', '\n'] :=
        takeB_iff.2 ⟨u, rfl, rfl⟩
      have hn : lineStarts ('\n' :: u) (pos + 1) = lineStarts ('\r' :: '\n' :: u) pos := by
        rw [lineStarts_cons (by simp)]
        simp only [true_or, if_true]
        conv => rhs; unfold lineStarts
        rfl
      simp only [if_true, e]
      have := ih ls (pos + 1)
      rw [hn] at this
      exact this
    · unfold getLinesGo
      rw [lineStarts_cons hcr]
      have row : ∀ stop, stop + 1 = pos + c.utf8Size →
          ((⟨ls, stop⟩ : Line) :: (getLinesGo t (stop + 1) (pos + c.utf8Size)).1,
            (getLinesGo t (stop + 1) (pos + c.utf8Size)).2) =
          (rowsOf ls ((pos + c.utf8Size) :: lineStarts t (pos + c.utf8Size)),
            ((pos + c.utf8Size) :: lineStarts t (pos + c.utf8Size)).getLast?.getD ls) := by
        intro stop hs
        rw [ih, ← hs]
        simp [rowsOf, List.getLast?_cons]
      dsimp only
      split
      · next hr =>
        subst hr
        obtain ⟨d, u, rfl, hd⟩ := h [] t rfl
        have e : takeB ('\r' :: d :: u) 2 = some ['\r', d] :=
          takeB_iff.2 ⟨u, rfl, by simp [hd]; rfl⟩
        have hd' : d ≠ '\n' := fun e => hcr ⟨rfl, u, by rw [e]⟩
        rw [e]
        simp only [List.cons.injEq, hd', and_true, and_false, if_false, true_or, or_true, if_true]
        exact row pos rfl
      · next hr =>
        split
        · next hn =>
          subst hn
          rw [if_pos (.inl rfl)]
          exact row pos rfl
        · next hn =>
          split
          · next hl =>
            rw [if_pos (.inr (.inr hl))]
            exact row (pos + 2) (by rcases hl with rfl | rfl <;> rfl)
          · next hl =>
            rw [if_neg (by simp [hr, hn]; simpa using hl)]
            exact ih _ _

/-- C12: outside the excluded texts the table has one row per line, and each row starts where the
line starts. -/
theorem lines_starts (text : Txt) (h : CrOk text) :
    (getLines text).map (·.start) = 0 :: lineStarts text 0 := by
  have key : ∀ (ns : List Nat) (ls : Nat),
      (rowsOf ls ns).map (·.start) ++ [ns.getLast?.getD ls] = ls :: ns := by
    intro ns
    induction ns with
    | nil => intro ls; rfl
    | cons n ns ih => intro ls; simp [rowsOf, List.getLast?_cons, ih]
  unfold getLines
  rw [getLinesGo_eq text 0 0 h]
  simp [key]

/-- C12 on a text with all kinds of terminators and multi-byte characters. -/
example : (getLines t!"é\n\r\nb\rc\u2028").map (·.start) = [0, 3, 5, 7, 11] ∧
    lineStarts t!"é\n\r\nb\rc\u2028" 0 = [3, 5, 7, 11] := by decide +kernel

/-- The excluded texts: a carriage return at the end of the text, or before a multi-byte
character, starts a line but the table has no row for it. -/
theorem lone_cr_missed :
    (getLines t!"a\r").map (·.start) = [0] ∧ lineStarts t!"a\r" 0 = [2] ∧
    (getLines t!"a\ré").map (·.start) = [0] ∧ lineStarts t!"a\ré" 0 = [2] := by decide +kernel

/-! ## C13 -/

theorem search_some : ∀ (fuel : Nat) (lines : List Line) (start index : Nat),
    lines ≠ [] → lines.length ≤ fuel + 1 → ∃ r, search fuel lines start index = some r
  | _, [], _, _, h, _ => absurd rfl h
  | _, [l], _, index, _, _ => ⟨(index, l), by unfold search; rfl⟩
  | 0, _ :: _ :: _, _, _, _, h => by simp at h
  | fuel + 1, a :: b :: rest, start, index, _, h => by
    unfold search
    have hh : (a :: b :: rest).length / 2 - 1 < (a :: b :: rest).length := by
      simp only [List.length_cons]; omega
    dsimp only
    rw [List.getElem?_eq_getElem hh]
    dsimp only
    split
    · exact search_some fuel _ start index
        (by intro e; have := congrArg List.length e; simp at this; omega)
        (by simp only [List.length_cons] at h; simp only [List.length_take, List.length_cons]; omega)
    · exact search_some fuel _ start _
        (by intro e; have := congrArg List.length e; simp at this; omega)
        (by simp only [List.length_cons] at h; simp only [List.length_drop, List.length_cons]; omega)

/-- The binary search finds the row after all rows that end at or before the offset. -/
theorem search_spec : ∀ (fuel : Nat) (a b : List Line) (x : Line) (start index : Nat),
    (∀ l ∈ a, l.stop ≤ start) → (∀ l ∈ (x :: b).dropLast, start < l.stop) →
    (a ++ x :: b).length ≤ fuel + 1 →
    search fuel (a ++ x :: b) start index = some (index + a.length, x) := by
  intro fuel
  induction fuel with
  | zero =>
    intro a b x start index _ _ h
    simp only [List.length_append, List.length_cons] at h
    have ha : a = [] := List.length_eq_zero_iff.1 (by omega)
    have hb : b = [] := List.length_eq_zero_iff.1 (by omega)
    subst ha hb
    unfold search
    rfl
  | succ fuel ih =>
    intro a b x start index h1 h2 h
    match hl : a ++ x :: b with
    | [] => simp at hl
    | [l] =>
      have hlen := congrArg List.length hl
      simp only [List.length_append, List.length_cons, List.length_nil] at hlen
      have ha : a = [] := List.length_eq_zero_iff.1 (by omega)
      have hb : b = [] := List.length_eq_zero_iff.1 (by omega)
      subst ha hb
      simp at hl
      subst hl
      unfold search
      rfl
    | p :: q :: rest =>
      unfold search
      dsimp only
      rw [← hl]
      have hlen : 2 ≤ (a ++ x :: b).length := by rw [hl]; simp
      generalize hhalf : (a ++ x :: b).length / 2 = half
      have hh : 0 < half := by omega
      have hh' : half < (a ++ x :: b).length := by omega
      have hlt : half - 1 < (a ++ x :: b).length := by omega
      rw [List.getElem?_eq_getElem hlt]
      dsimp only
      have hlen' : (a ++ x :: b).length = a.length + (b.length + 1) := by simp
      by_cases hcase : half ≤ a.length
      · have hmem : (a ++ x :: b)[half - 1] ∈ a := by
          rw [List.getElem_append_left (by omega)]
          exact List.getElem_mem _
        rw [if_neg (by have := h1 _ hmem; omega)]
        have e : (a ++ x :: b).drop half = a.drop half ++ x :: b := by
          rw [List.drop_append_of_le_length hcase]
        rw [e, ih (a.drop half) b x start (index + half)
          (fun l hm => h1 l (List.mem_of_mem_drop hm)) h2
          (by simp only [List.length_append, List.length_drop, List.length_cons] at h ⊢; omega)]
        simp only [List.length_drop]
        congr 2
        omega
      · have hk : half - 1 - a.length < (x :: b).dropLast.length := by
          simp; omega
        have hmem : (a ++ x :: b)[half - 1] ∈ (x :: b).dropLast := by
          rw [List.getElem_append_right (by omega)]
          have := List.getElem_mem hk
          rwa [List.getElem_dropLast] at this
        rw [if_pos (h2 _ hmem)]
        have e : (a ++ x :: b).take half = a ++ x :: (b.take (half - a.length - 1)) := by
          rw [List.take_append, List.take_of_length_le (by omega)]
          congr 1
          obtain ⟨m, hm⟩ : ∃ m, half - a.length = m + 1 := ⟨half - a.length - 1, by omega⟩
          rw [hm]
          rfl
        rw [e]
        refine ih a _ x start index h1 ?_ ?_
        · intro l hl
          apply h2
          have : (x :: b.take (half - a.length - 1)).dropLast <+: (x :: b).dropLast := by
            rw [List.dropLast_eq_take, List.dropLast_eq_take]
            have e1 : x :: List.take (half - a.length - 1) b =
              List.take (half - a.length) (x :: b) := by
              obtain ⟨m, hm⟩ : ∃ m, half - a.length = m + 1 := ⟨half - a.length - 1, by omega⟩
              rw [hm]; rfl
            rw [e1, List.take_take]
            exact List.take_prefix_take_left (by simp; omega)
          exact this.subset hl
        · simp only [List.length_append, List.length_cons, List.length_take] at h ⊢
          omega

theorem rowsOf_append (ns ms : List Nat) (ls : Nat) :
    rowsOf ls (ns ++ ms) = rowsOf ls ns ++ rowsOf (ns.getLast?.getD ls) ms := by
  induction ns generalizing ls with
  | nil => rfl
  | cons n ns ih => simp [rowsOf, ih, List.getLast?_cons]

theorem rowsOf_length (ns : List Nat) (ls : Nat) : (rowsOf ls ns).length = ns.length := by
  induction ns generalizing ls with
  | nil => rfl
  | cons n ns ih => simp [rowsOf, ih]

theorem rowsOf_stop {ns : List Nat} {ls : Nat} {l : Line} (h : l ∈ rowsOf ls ns) :
    ∃ n ∈ ns, l.stop = n - 1 := by
  induction ns generalizing ls with
  | nil => simp [rowsOf] at h
  | cons n ns ih =>
    simp only [rowsOf, List.mem_cons] at h
    rcases h with rfl | h
    · exact ⟨n, by simp, rfl⟩
    · obtain ⟨m, hm, e⟩ := ih h
      exact ⟨m, by simp [hm], e⟩

theorem lineStarts_bounds (t : Txt) (pos : Nat) :
    ∀ n ∈ lineStarts t pos, pos < n ∧ n ≤ pos + blen t := by
  fun_induction lineStarts t pos with
  | case1 => simp
  | case2 pos t ih =>
    intro n hn
    have h1 : Char.utf8Size '\r' = 1 := rfl
    have h2 : Char.utf8Size '\n' = 1 := rfl
    rcases List.mem_cons.1 hn with rfl | hn
    · simp [h1, h2]; omega
    · have := ih n hn; simp [h1, h2]; omega
  | case3 c t pos h hc ih =>
    intro n hn
    have := c.utf8Size_pos
    rcases List.mem_cons.1 hn with rfl | hn
    · simp; omega
    · have := ih n hn; simp; omega
  | case4 c t pos h hc ih =>
    intro n hn
    have := c.utf8Size_pos
    have := ih n hn
    simp; omega

theorem lineStarts_append (p u : Txt) (pos : Nat) (h : u.head? ≠ some '\n') :
    lineStarts (p ++ u) pos = lineStarts p pos ++ lineStarts u (pos + blen p) := by
  fun_induction lineStarts p pos with
  | case1 pos => simp
  | case2 t pos ih =>
    have e : lineStarts ('\r' :: '\n' :: t ++ u) pos =
        (pos + 2) :: lineStarts (t ++ u) (pos + 2) := by
      simp only [List.cons_append]; rw [lineStarts]
    rw [e, ih]
    have h1 : Char.utf8Size '\r' = 1 := rfl
    have h2 : Char.utf8Size '\n' = 1 := rfl
    simp only [List.cons_append, blen_cons, h1, h2]
    congr 3
    omega
  | case3 c t pos hne hc ih =>
    rw [List.cons_append, lineStarts_cons, if_pos hc, ih]
    · simp [Nat.add_assoc]
    · rintro ⟨rfl, v, hv⟩
      cases t with
      | nil => simp at hv; rw [hv] at h; simp at h
      | cons d t => simp at hv; exact hne t rfl (by rw [hv.1])
  | case4 c t pos hne hc ih =>
    rw [List.cons_append, lineStarts_cons, if_neg hc, ih]
    · simp [Nat.add_assoc]
    · rintro ⟨rfl, v, hv⟩
      exact hc (by simp)

theorem lineStarts_far (u : Txt) (pos : Nat) (h : u.head? ≠ some '\n') (h' : u.head? ≠ some '\r') :
    ∀ n ∈ lineStarts u pos, pos + 1 < n := by
  intro n hn
  cases u with
  | nil => simp [lineStarts] at hn
  | cons c t =>
    simp only [List.head?_cons, ne_eq, Option.some.injEq] at h h'
    rw [lineStarts_cons (by simp [h'])] at hn
    have hp := c.utf8Size_pos
    split at hn
    · next hc =>
      have : c.utf8Size = 3 := by
        rcases hc with rfl | rfl | rfl | rfl
        · exact absurd rfl h
        · exact absurd rfl h'
        · rfl
        · rfl
      rcases List.mem_cons.1 hn with rfl | hn
      · omega
      · have := lineStarts_bounds _ _ n hn; omega
    · have := lineStarts_bounds _ _ n hn; omega

/-- C13: the position computed for an item that starts at the end of `p` in the text `p ++ u` is
the line and column of that place.  An item never starts at a line feed or carriage return. -/
theorem position_correct (p u : Txt) (h : CrOk (p ++ u)) (hn : u.head? ≠ some '\n')
    (hr : u.head? ≠ some '\r') :
    getItemPosition (getLines (p ++ u)) (blen p) = some ⟨lineOf p, columnOf p⟩ := by
  have hg := getLinesGo_eq (p ++ u) 0 0 h
  unfold getItemPosition getLines
  rw [hg, lineStarts_append p u 0 hn]
  simp only [Nat.zero_add]
  generalize hns : lineStarts p 0 = ns
  generalize hms : lineStarts u (blen p) = ms
  have hns' : ∀ n ∈ ns, n ≤ blen p := by
    intro n hm; rw [← hns] at hm; have := lineStarts_bounds p 0 n hm; omega
  have hns0 : ∀ n ∈ ns, 0 < n := by
    intro n hm; rw [← hns] at hm; exact (lineStarts_bounds p 0 n hm).1
  have hms' : ∀ n ∈ ms, blen p + 1 < n := by
    intro n hm; rw [← hms] at hm; exact lineStarts_far u _ hn hr n hm
  rw [rowsOf_append]
  have hx : ∃ x b, rowsOf (ns.getLast?.getD 0) ms ++
      [{ start := (ns ++ ms).getLast?.getD 0, stop := blen (p ++ u) - 1 }] = x :: b ∧
      x.start = ns.getLast?.getD 0 ∧ ∀ l ∈ (x :: b).dropLast, blen p < l.stop := by
    cases ms with
    | nil =>
      refine ⟨_, [], rfl, ?_, by simp⟩
      simp
    | cons m ms =>
      refine ⟨_, _, rfl, rfl, ?_⟩
      intro l hl
      have e : ((⟨ns.getLast?.getD 0, m - 1⟩ : Line) :: (rowsOf m ms ++
        [{ start := (ns ++ m :: ms).getLast?.getD 0, stop := blen (p ++ u) - 1 }])).dropLast =
          rowsOf (ns.getLast?.getD 0) (m :: ms) := by
        rw [← List.cons_append, List.dropLast_concat]; rfl
      have hl' : l ∈ rowsOf (ns.getLast?.getD 0) (m :: ms) := by rw [← e]; exact hl
      obtain ⟨n, hn', e'⟩ := rowsOf_stop hl'
      have := hms' n hn'
      omega
  obtain ⟨x, b, e, hxs, hb⟩ := hx
  rw [List.append_assoc, e]
  rw [search_spec _ (rowsOf 0 ns) b x (blen p) 0 ?_ hb (by omega)]
  · simp only [Nat.zero_add, rowsOf_length, hxs, lineOf, columnOf, startOfLine, hns]
    rw [Nat.add_comm]
  · intro l hl
    obtain ⟨n, hm, e'⟩ := rowsOf_stop hl
    have := hns' n hm
    omega

/-- C13: the start of the line and the column give the offset back. -/
theorem column_roundtrip (p : Txt) : startOfLine p + columnOf p = blen p := by
  have : startOfLine p ≤ blen p := by
    unfold startOfLine
    cases h : (lineStarts p 0).getLast? with
    | none => simp
    | some n =>
      have := lineStarts_bounds p 0 n (List.mem_of_getLast? h)
      simp; omega
  unfold columnOf
  omega

/-- C13 on the third line of a text with CR LF and a multi-byte character. -/
example : getItemPosition (getLines t!"a\r\né\n  xy") 8 = some ⟨3, 2⟩ ∧
    lineOf t!"a\r\né\n  " = 3 ∧ columnOf t!"a\r\né\n  " = 2 := by decide +kernel

end Ressa
