import Verif.Proof.Fix
import Verif.Spec.Runs

/-!
# State invariants of the public calls
-/

namespace Ressa

section
variable {S : Sys} (H : SysOk S)
include H

theorem Sys.nextPart_post {s : St} (hi : S.inv s) : S.post true Any s (nextPart s) := by
  haveI := Sys.base H (mu s + 1)
  haveI := (Sys.full_rel H (mu s + 1) true).closed
  unfold nextPart
  refine Sys.post_bind H (d1 := false) (d2 := true)
    (Q := Any) (m := P.and (readC fun c => !c.pastProlog) (lookIs (·.isString))) ?_ ?_ (by simp)
  · unfold P.and
    simp only [readC_bind]
    split
    · exact Sys.post_get H hi
    · exact Sys.post_pure H hi trivial
  · intro b s' _ hmu hi' _
    simp only [one_false, Nat.add_zero] at hmu
    split
    · refine Sys.post_bind H (d1 := true) (d2 := false)
        (directive_j (J := S.judgement (mu s + 1)) (R := full) (R' := full) s' ?_ hi') ?_ (by simp)
      · simp; omega
      · intro part s'' _ _ hi'' _
        exact Sys.post_bind H (d1 := false) (d2 := false) (Sys.post_modC H hi'')
          (fun _ _ _ _ hi _ => Sys.post_pure H hi trivial) (by simp)
    · refine Sys.post_bind H (d1 := false) (d2 := true) (Sys.post_modC H hi') ?_ (by simp)
      intro _ s'' _ hmu' hi'' _
      exact (Sys.full_rel H (mu s + 1) true).listItem s'' (by simp at hmu' ⊢; omega) hi''

theorem Sys.next_post {s : St} (hi : S.inv s) : S.post false Any s (next s) := by
  unfold next
  simp only [lookIs_bind]
  split
  · exact Sys.post_pure H hi trivial
  · exact Sys.post_bind H (d1 := true) (d2 := false) (Sys.nextPart_post H hi)
      (fun _ _ _ _ hi _ => Sys.post_pure H hi trivial) (by simp)

theorem Sys.parse_post {s : St} (hi : S.inv s) : S.post false Any s (parse s) := by
  haveI := Sys.base H (mu s + 1)
  unfold parse
  refine Sys.post_bind H (d1 := false) (d2 := false) (Q := Any) ?_ ?_ (by simp)
  · refine jUntilP (J := S.judgement (mu s + 1)) (c := true) (cond' := lookIs (·.isEof))
      (body' := fun acc => do return acc ++ [← nextPart]) (Base.lookIs _) (fun x => ?_) s (by simp) hi
    intro s' _ hi'
    exact Sys.post_bind H (d1 := true) (d2 := false) (Sys.nextPart_post H hi')
      (fun _ _ _ _ hi _ => Sys.post_pure H hi trivial) (by simp)
  · intro body s' _ _ hi' _
    unfold readModule
    simp only [get_bind]
    split <;> exact Sys.post_pure H hi' trivial

theorem Sys.expression_post {s : St} (hi : S.inv s) : S.post true Any s (full.expression s) :=
  (Sys.full_rel H (mu s + 1) true).expression s (by simp) hi

theorem Sys.skipItem_post {s : St} (hi : S.inv s) : S.post true Any s (skipItem s) :=
  Sys.post_bind H (d2 := false) (Sys.post_next H hi)
    (fun _ _ _ _ hi _ => Sys.post_pure H hi trivial) (by simp)

theorem Sys.call {s s' : St} (h : Call s s') (hi : S.inv s) :
    mu s' ≤ mu s ∧ S.inv s' ∧ S.ord s s' := by
  cases h with
  | nextOk h => have := h ▸ Sys.next_post H hi; exact ⟨this.1, this.2.1, this.2.2.1⟩
  | nextErr h => have := h ▸ Sys.next_post H hi; exact ⟨this.1, this.2.1, this.2.2.1⟩
  | parseOk h => have := h ▸ Sys.parse_post H hi; exact ⟨this.1, this.2.1, this.2.2.1⟩
  | parseErr h => have := h ▸ Sys.parse_post H hi; exact ⟨this.1, this.2.1, this.2.2.1⟩
  | exprOk h =>
    have := h ▸ Sys.post_d (d := false) (Sys.expression_post H hi)
    exact ⟨this.1, this.2.1, this.2.2.1⟩
  | exprErr h => have := h ▸ Sys.expression_post H hi; exact ⟨this.1, this.2.1, this.2.2.1⟩

theorem Sys.calls {s s' : St} (h : Calls s s') (hi : S.inv s) :
    mu s' ≤ mu s ∧ S.inv s' ∧ S.ord s s' := by
  induction h with
  | refl => exact ⟨Nat.le_refl _, hi, H.refl _⟩
  | tail _ hc ih =>
    obtain ⟨h1, h2, h3⟩ := ih
    obtain ⟨k1, k2, k3⟩ := Sys.call H hc h2
    exact ⟨Nat.le_trans k1 h1, k2, H.trans h3 k3⟩

/-- The state a parser starts from. -/
abbrev Builder.init (b : Builder) (L : Lexer) : St :=
  initState L b.tolerant b.isModule b.js (getLines b.js)

theorem Sys.reachable {L : Lexer} {b : Builder} {s : St} (h : Reachable L b s)
    (hi : S.inv (b.init L)) :
    mu s + 1 ≤ mu (b.init L) ∧ S.inv s ∧ S.ord (b.init L) s := by
  obtain ⟨s0, h0, hc⟩ := h
  have hp : S.post true Any (b.init L) (b.build L) := Sys.skipItem_post H hi
  rw [h0] at hp
  obtain ⟨p1, p2, p3, _⟩ := hp
  obtain ⟨k1, k2, k3⟩ := Sys.calls H hc p2
  exact ⟨by simp at p1; omega, k2, H.trans p3 k3⟩

end

end Ressa
