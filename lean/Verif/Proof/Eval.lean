import Verif.Proof.Reach

/-!
# Tests are reads

The tests of the parser do not change the state: each is `P.get f` for a function `f` of the
state.
-/

namespace Ressa

theorem get_and (f g : St → Bool) : P.and (P.get f) (P.get g) = P.get fun s => f s && g s := by
  funext s
  simp only [P.and, get_bind, get_run]
  cases f s <;> rfl

theorem get_or (f g : St → Bool) : P.or (P.get f) (P.get g) = P.get fun s => f s || g s := by
  funext s
  simp only [P.or, get_bind, get_run]
  cases f s <;> rfl

theorem get_not (f : St → Bool) : P.not (P.get f) = P.get fun s => !f s := rfl

theorem pure_get {α : Type} (a : α) : (pure a : P α) = P.get fun _ => a := rfl

theorem get_when (f : St → Bool) (m : P Unit) (s : St) :
    P.when (P.get f) m s = if f s then m s else .ok () s := by
  simp only [P.when, get_bind]
  split <;> rfl

theorem and_pure (b : Bool) (m : P Bool) : P.and (pure b) m = if b then m else pure false := by
  cases b <;> rfl

theorem or_pure (b : Bool) (m : P Bool) : P.or (pure b) m = if b then pure true else m := by
  cases b <;> rfl

end Ressa

namespace Ressa

@[simp] theorem punct_matchesKeyword (p k) : (Token.punct p).matchesKeyword k = false := by
  simp [Token.matchesKeyword]

@[simp] theorem keyword_matchesPunct (p k) : (Token.keyword k).matchesPunct p = false := by
  simp [Token.matchesPunct]

@[simp] theorem punct_matchesPunct (p q) : (Token.punct p).matchesPunct q = (p == q) := by
  rw [Bool.eq_iff_iff]; simp [Token.matchesPunct]

@[simp] theorem keyword_matchesKeyword (p q) : (Token.keyword p).matchesKeyword q = (p == q) := by
  rw [Bool.eq_iff_iff]; simp [Token.matchesKeyword]

theorem matchesPunct_iff {t : Token} {p} : t.matchesPunct p = true ↔ t = .punct p := by
  simp [Token.matchesPunct]

theorem matchesKeyword_iff {t : Token} {k} : t.matchesKeyword k = true ↔ t = .keyword k := by
  simp [Token.matchesKeyword]

end Ressa
