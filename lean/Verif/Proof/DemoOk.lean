import Verif.Spec.Demo
import Verif.Spec.Scanner
import Verif.Proof.TextLemmas

/-!
# The items of the examples are what a scanner yields
-/

namespace Ressa.Demo

/-- A piece a scanner can yield. -/
def PieceOk (p : Piece) : Prop := p.token ≠ .eof ∧ ShapeOk p.text p.token

theorem items_start (ps : List Piece) : ∀ n, ∀ t ∈ items ps n, n ≤ t.item.span.start := by
  induction ps with
  | nil => intro n t ht; simp only [items, List.mem_singleton] at ht; subst ht; exact Nat.le_refl _
  | cons p ps ih =>
    intro n t ht
    rcases List.mem_cons.1 ht with rfl | ht
    · exact Nat.le_succ _
    · have := ih _ t ht; omega

theorem items_ok (ps : List Piece) (h : ∀ p ∈ ps, PieceOk p) : ∀ x : Txt,
    (∀ t ∈ items ps (blen x), ItemOk (x ++ text ps) t.item) ∧
    (items ps (blen x)).Pairwise (fun a b => a.item.span.stop ≤ b.item.span.start) ∧
    ∃ body e, items ps (blen x) = body ++ [e] ∧ e.item.token = .eof ∧
      ∀ t ∈ body, t.item.token ≠ .eof := by
  induction ps with
  | nil =>
    intro x
    refine ⟨?_, List.pairwise_singleton _ _, [], _, rfl, rfl, by simp⟩
    intro t ht
    simp only [items, List.mem_singleton] at ht
    subst ht
    exact ⟨[], sliceB_iff.2 ⟨x, [], by simp [text], rfl, rfl⟩, trivial⟩
  | cons p ps ih =>
    intro x
    obtain ⟨hp1, hp2⟩ := h p (by simp)
    have hc : (if p.nl then '\n' else ' ').utf8Size = 1 := by cases p.nl <;> rfl
    have hlen : blen (x ++ (if p.nl then '\n' else ' ') :: p.text) = blen x + 1 + blen p.text := by
      simp [hc]; omega
    obtain ⟨h1, h2, body, e, h3, h4, h5⟩ :=
      ih (fun q hq => h q (by simp [hq])) (x ++ (if p.nl then '\n' else ' ') :: p.text)
    rw [hlen] at h1 h2 h3
    have htext : x ++ text (p :: ps) = x ++ (if p.nl then '\n' else ' ') :: p.text ++ text ps := by
      simp [text]
    refine ⟨?_, ?_, ?_⟩
    · intro t ht
      rcases List.mem_cons.1 ht with rfl | ht
      · exact ⟨p.text, sliceB_iff.2 ⟨x ++ [if p.nl then '\n' else ' '], text ps, by simp [text],
          by simp [hc], by simp [hc]⟩, hp2⟩
      · rw [htext]; exact h1 t ht
    · exact List.pairwise_cons.2 ⟨fun t ht => items_start ps _ t ht, h2⟩
    · refine ⟨_ :: body, e, congrArg _ h3, h4, ?_⟩
      intro t ht
      rcases List.mem_cons.1 ht with rfl | ht
      · exact hp1
      · exact h5 t ht

/-- The items of the examples are what a scanner yields. -/
theorem scannerOk {ps : List Piece} (h : ∀ p ∈ ps, PieceOk p) :
    ScannerOk (text ps) ((lexer ps).scan (text ps)) := by
  obtain ⟨h1, h2, h3⟩ := items_ok ps h []
  exact ⟨h1, h2, h3⟩

end Ressa.Demo
