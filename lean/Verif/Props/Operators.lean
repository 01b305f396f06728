import Verif.Spec.Operators
import Verif.Proof.Exec

/-!
# Operators (C18, C19)
-/

namespace Ressa

open Gr

namespace Gr

theorem opOf_token {t : Token} {op : Op} (h : opOf t = some op) : t = op.token := by
  cases t with
  | punct p =>
    cases p <;> simp [opOf, logicalOperator, binaryOperator] at h <;> subst h <;> rfl
  | keyword k =>
    cases k <;> simp [opOf, logicalOperator, binaryOperator] at h <;> subst h <;> rfl
  | _ => simp [opOf, logicalOperator, binaryOperator] at h

/-! ## The grouping is determined by the sequence -/

/-- Splitting a list at an entry that is the rightmost of the weakest. -/
theorem split_unique {α : Type} {f : α → Nat} {l l' r r' : List α} {a a' : α}
    (h : l ++ a :: r = l' ++ a' :: r')
    (h1 : ∀ p ∈ l, f a ≤ f p) (h2 : ∀ p ∈ r, f a < f p)
    (h1' : ∀ p ∈ l', f a' ≤ f p) (h2' : ∀ p ∈ r', f a' < f p) : l = l' ∧ a = a' ∧ r = r' := by
  induction l generalizing l' with
  | nil =>
    cases l' with
    | nil => simpa using h
    | cons b l' =>
      simp only [List.nil_append, List.cons_append, List.cons.injEq] at h
      obtain ⟨rfl, rfl⟩ := h
      have := h2 a' (by simp)
      have := h1' a (by simp)
      omega
  | cons b l ih =>
    cases l' with
    | nil =>
      simp only [List.nil_append, List.cons_append, List.cons.injEq] at h
      obtain ⟨rfl, rfl⟩ := h
      have := h2' a (by simp)
      have := h1 b (by simp)
      omega
    | cons b' l' =>
      simp only [List.cons_append, List.cons.injEq] at h
      obtain ⟨rfl, h⟩ := h
      obtain ⟨h3, h4, h5⟩ := ih h (fun p hp => h1 p (by simp [hp])) (fun p hp => h1' p (by simp [hp]))
      exact ⟨by rw [h3], h4, h5⟩

/-- A sequence has at most one grouping. -/
theorem Groups.unique {x l e e'} (h : Groups x l e) (h' : Groups x l e') : e = e' := by
  induction h generalizing e' with
  | one =>
    generalize hl : ([] : List (Op × Expr)) = l at h'
    cases h' with
    | one => rfl
    | node => simp at hl
  | @node x l op y r a b h1 h2 _ _ ih1 ih2 =>
    generalize hl : l ++ (op, y) :: r = l' at h'
    cases h' with
    | one => simp at hl
    | @node _ l' op' y' r' a' b' h1' h2' ha hb =>
      obtain ⟨rfl, h4, rfl⟩ := split_unique (f := fun p : Op × Expr => p.1.level) hl h1 h2 h1' h2'
      cases h4
      rw [ih1 ha, ih2 hb]

/-- Every nonempty list has a rightmost weakest entry. -/
theorem exists_split {α : Type} (f : α → Nat) : ∀ l : List α, l ≠ [] →
    ∃ u a v, l = u ++ a :: v ∧ (∀ p ∈ u, f a ≤ f p) ∧ ∀ p ∈ v, f a < f p
  | [], h => absurd rfl h
  | [a], _ => ⟨[], a, [], rfl, by simp, by simp⟩
  | b :: c :: l, _ => by
    obtain ⟨u, a, v, h, h1, h2⟩ := exists_split f (c :: l) (by simp)
    by_cases hb : f a ≤ f b
    · refine ⟨b :: u, a, v, by rw [h]; rfl, ?_, h2⟩
      intro p hp
      rcases List.mem_cons.1 hp with rfl | hp
      · exact hb
      · exact h1 p hp
    · refine ⟨[], b, c :: l, rfl, by simp, ?_⟩
      rw [h]
      intro p hp
      rcases List.mem_append.1 hp with hp | hp
      · have := h1 p hp; omega
      · rcases List.mem_cons.1 hp with rfl | hp
        · omega
        · have := h2 p hp; omega

/-- Every sequence has a grouping. -/
theorem Groups.exists (x : Expr) (l : List (Op × Expr)) : ∃ e, Groups x l e := by
  induction hn : l.length using Nat.strongRecOn generalizing x l with
  | ind n ih =>
    by_cases hl : l = []
    · exact ⟨x, hl ▸ .one⟩
    · obtain ⟨u, ⟨op, y⟩, v, rfl, h1, h2⟩ :=
        exists_split (fun p : Op × Expr => p.1.level) l hl
      simp only [List.length_append, List.length_cons] at hn
      obtain ⟨a, ha⟩ := ih u.length (by omega) x u rfl
      obtain ⟨b, hb⟩ := ih v.length (by omega) y v rfl
      exact ⟨_, .node h1 h2 ha hb⟩

/-! ## From derivations -/

variable {C : Cfg} {Γ : Env}

theorem Joined.append {x l i t j op y r o} (h : Joined C Γ x l i (t :: j))
    (ht : t.item.token = Op.token op) (h' : Joined C Γ y r j o) :
    Joined C Γ x (l ++ (op, y) :: r) i o := by
  generalize ho : t :: j = k at h
  induction h with
  | one hx => subst ho; exact .more hx ht h'
  | more hx hop _ ih => exact .more hx hop (ih ho)

/-- The operands and operators of a derivation. -/
theorem joined_of_G {n e i o} (h : G C Γ (.bin n e) i o) :
    ∃ x l, Joined C Γ x l i o ∧ Groups x l e ∧ ∀ p ∈ l, n ≤ p.1.level := by
  generalize hnt : NT.bin n e = nt at h
  induction h generalizing n e with
  | binOne h _ => cases hnt; exact ⟨_, [], .one h, .one, by simp⟩
  | bin _ hop _ hn _ ih1 ih2 =>
    cases hnt
    obtain ⟨x, l, h1, h2, h3⟩ := ih1 rfl
    obtain ⟨y, r, h1', h2', h3'⟩ := ih2 rfl
    refine ⟨x, l ++ (_, y) :: r, h1.append (opOf_token hop) h1',
      .node h3 (fun p hp => h3' p hp) h2 h2', ?_⟩
    intro p hp
    rcases List.mem_append.1 hp with hp | hp
    · exact Nat.le_trans hn (h3 p hp)
    · rcases List.mem_cons.1 hp with rfl | hp
      · exact hn
      · exact Nat.le_trans hn (Nat.le_of_lt (h3' p hp))
  | _ => exact nomatch hnt

theorem chain_of_G {e i o} (h : G C Γ (.expo e) i o) :
    (∃ x l, Chain C Γ x l i o ∧ e = powers x l) ∧ head o ≠ .punct .exponent := by
  generalize hnt : NT.expo e = nt at h
  induction h generalizing e with
  | expoOne h ho _ => cases hnt; exact ⟨⟨_, [], .one h, rfl⟩, ho⟩
  | expo h1 ht _ _ ih2 =>
    cases hnt
    obtain ⟨⟨y, l, h2, rfl⟩, h3⟩ := ih2 rfl
    exact ⟨⟨_, _, .more h1 ht h2, rfl⟩, h3⟩
  | _ => exact nomatch hnt

end Gr

/-! ## The parser -/

open Rn in
theorem reduceAll_same {C Γ i ops stack e} :
    Run C Γ i (reduceAll ops stack e) fun _ o => o = i := by
  induction ops generalizing stack e with
  | nil => unfold reduceAll; sx; rfl
  | cons t ops ih =>
    cases stack with
    | nil => unfold reduceAll; sx; rfl
    | cons x stack => unfold reduceAll; sx; exact ih

open Rn in
theorem reduceWhile_same {C Γ i prec ops stack precs} :
    Run C Γ i (reduceWhile prec ops stack precs) fun _ o => o = i := by
  induction ops generalizing stack precs with
  | nil => unfold reduceWhile; sx; rfl
  | cons t ops ih =>
    rcases stack with _ | ⟨x, _ | ⟨y, stack⟩⟩ <;> unfold reduceWhile
    · sx; rfl
    · sx; rfl
    · cases precs with
      | nil => sx
      | cons p ps =>
        sx
        · exact ih
        · rfl

open Rn in
theorem binaryExpr_end {C Γ i} :
    Run C Γ i (binaryExpr full) fun _ o => binPrecedence Γ.allowIn (head o) = 0 := by
  have := full_ok (C := C)
  unfold binaryExpr
  sx
  · refine Run.loopP (fun _ _ => True) trivial ?_
    intro st o _
    sx
    · exact reduceAll_same.mono fun _ o h => by subst h; assumption
    · refine reduceWhile_same.mono ?_
      rintro st' o' rfl
      sx
      exact trivial
  · omega

/-- C18: the result of parsing operands joined by operators.  The items consumed are the operands
and operators in order, the tree is the grouping of that sequence (there is exactly one, see
`Groups.unique` and `Groups.exists`), and the item after them is no operator, except for `in` where
it is not allowed. -/
theorem operators_group {C : Cfg} {Γ : Env} {i : List Tok} {s s' : St} {e : Expr}
    (hs : At C Γ i s) (h : binaryExpr full s = .ok e s') :
    ∃ x l o, At C Γ o s' ∧ Joined C Γ x l i o ∧ Groups x l e ∧
      ∀ op, head o = Op.token op → op = .bin .in ∧ Γ.allowIn = false := by
  have := full_ok (C := C)
  obtain ⟨o, ho, hG⟩ := Rn.binaryExpr s e s' hs h
  obtain ⟨o', ho', hp⟩ := binaryExpr_end s e s' hs h
  obtain rfl : o = o' := ho.pend.symm.trans ho'.pend
  obtain ⟨x, l, h1, h2, -⟩ := joined_of_G hG
  refine ⟨x, l, o, ho, h1, h2, ?_⟩
  have hlast : head o ≠ .punct .exponent := by
    clear h2 hG hp ho ho' h hs
    induction h1 with
    | one hx => exact (chain_of_G hx).2
    | more _ _ _ ih => exact ih
  intro op hop
  rw [hop] at hp hlast
  cases op with
  | bin b =>
    cases b <;> simp [Op.token, binPrecedence, determinePrecedence] at hp hlast ⊢
    exact hp
  | log b => cases b <;> simp [Op.token, binPrecedence, determinePrecedence] at hp

/-- C19: the result of parsing operands joined by `**` groups them from the right, and the next
item is not `**`. -/
theorem powers_right {C : Cfg} {Γ : Env} {i : List Tok} {s s' : St} {e : Expr}
    (hs : At C Γ i s) (h : expoExpr full s = .ok e s') :
    ∃ x l o, At C Γ o s' ∧ Chain C Γ x l i o ∧ e = powers x l ∧ head o ≠ .punct .exponent := by
  have := full_ok (C := C)
  obtain ⟨o, ho, hG⟩ := Rn.expoExpr s e s' hs h
  obtain ⟨⟨x, l, h1, h2⟩, h3⟩ := chain_of_G hG
  exact ⟨x, l, o, ho, h1, h2, h3⟩

/-- C19: every operand of the other operators is a whole `**` chain: it is grouped from the right,
and the item after it is not `**`. -/
theorem operands_are_chains {C : Cfg} {Γ : Env} {x : Expr} {l : List (Op × Expr)}
    {i o : List Tok} (h : Joined C Γ x l i o) :
    ∀ y ∈ x :: l.map (·.2), ∃ z ys j k, Chain C Γ z ys j k ∧ y = powers z ys ∧
      head k ≠ .punct .exponent := by
  induction h with
  | one hx =>
    obtain ⟨⟨z, ys, h1, h2⟩, h3⟩ := chain_of_G hx
    intro y hy
    simp only [List.map_nil, List.mem_singleton] at hy
    subst hy
    exact ⟨z, ys, _, _, h1, h2, h3⟩
  | more hx _ _ ih =>
    obtain ⟨⟨z, ys, h1, h2⟩, h3⟩ := chain_of_G hx
    intro y hy
    rcases List.mem_cons.1 hy with rfl | hy
    · exact ⟨z, ys, _, _, h1, h2, h3⟩
    · exact ih y hy

/-- `a || b + c * d ** e ** f - g`. -/
example :
    Demo.parse [Demo.id t!"a", Demo.p .logicalOr t!"||", Demo.id t!"b", Demo.p .plus t!"+",
      Demo.id t!"c", Demo.p .asterisk t!"*", Demo.id t!"d", Demo.p .exponent t!"**", Demo.id t!"e",
      Demo.p .exponent t!"**", Demo.id t!"f", Demo.p .minus t!"-", Demo.id t!"g"] =
    .ok (.script [.stmt (.expr (.logical .or (.ident t!"a") (.binary .minus
      (.binary .plus (.ident t!"b") (.binary .times (.ident t!"c")
        (powers (.ident t!"d") [.ident t!"e", .ident t!"f"])))
      (.ident t!"g"))))]) := by
  kernel_rfl

/-- The sequence of that example and its grouping. -/
example : Groups (.ident t!"a") [(.log .or, .ident t!"b"), (.bin .plus, .ident t!"c"),
      (.bin .times, .ident t!"d"), (.bin .minus, .ident t!"g")]
    (.logical .or (.ident t!"a") (.binary .minus
      (.binary .plus (.ident t!"b") (.binary .times (.ident t!"c") (.ident t!"d")))
      (.ident t!"g"))) :=
  .node (l := []) (op := .log .or) (by simp) (by decide) .one
    (.node (l := [(.bin .plus, .ident t!"c"), (.bin .times, .ident t!"d")]) (op := .bin .minus)
      (by decide) (by simp)
      (.node (l := []) (op := .bin .plus) (by simp) (by decide) .one
        (.node (l := []) (op := .bin .times) (by simp) (by simp) .one .one)) .one)

/-- The theorems in front of `a - b - c` and `a ** b`. -/
example :
    (∃ e s' x l o, binaryExpr full (Demo.state [Demo.id t!"a", Demo.p .minus t!"-", Demo.id t!"b",
      Demo.p .minus t!"-", Demo.id t!"c"]) = .ok e s' ∧ Joined (Demo.cfg [Demo.id t!"a",
        Demo.p .minus t!"-", Demo.id t!"b", Demo.p .minus t!"-", Demo.id t!"c"]) Env.top x l
        (Demo.items [Demo.id t!"a", Demo.p .minus t!"-", Demo.id t!"b", Demo.p .minus t!"-",
          Demo.id t!"c"] 0) o ∧ Groups x l e) ∧
    (∃ s', expoExpr full (Demo.state [Demo.id t!"a", Demo.p .exponent t!"**", Demo.id t!"b"]) =
      .ok (powers (.ident t!"a") [.ident t!"b"]) s') := by
  refine ⟨?_, Demo.after (expoExpr full) (Demo.state [Demo.id t!"a", Demo.p .exponent t!"**",
    Demo.id t!"b"]), by kernel_rfl⟩
  have h : binaryExpr full (Demo.state [Demo.id t!"a", Demo.p .minus t!"-", Demo.id t!"b",
      Demo.p .minus t!"-", Demo.id t!"c"]) = .ok (.binary .minus (.binary .minus (.ident t!"a")
        (.ident t!"b")) (.ident t!"c")) (Demo.after (binaryExpr full) (Demo.state [Demo.id t!"a",
          Demo.p .minus t!"-", Demo.id t!"b", Demo.p .minus t!"-", Demo.id t!"c"])) := by
    kernel_rfl
  obtain ⟨x, l, o, -, h1, h2, -⟩ := operators_group (Demo.stand (by decide)).at_ h
  exact ⟨_, _, x, l, o, h, h1, h2⟩

end Ressa
