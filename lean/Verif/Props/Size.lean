import Verif.Proof.Count
import Verif.Proof.Occurs
import Verif.Proof.DemoOk

/-!
# Trees are linear in the text (C60)
-/

namespace Ressa
open Ressa.Tree Ressa.Gr

variable {L : Lexer} {b : Builder} {ps : List ProgramPart}

theorem count_parts {C Γ b ps i o} (h : Parts C Γ b ps i o) :
    (ps.map fun p => (Node.part p).count).sum + 6 * o.length ≤ 6 * i.length := by
  induction h with
  | nil => simp
  | @dir p _ _ _ _ _ hd _ ih =>
    have h1 : _ + _ ≤ _ := weight_of_G hd
    have := count_le (.part p)
    simp
    omega
  | @item _ p _ _ _ _ _ _ hd _ ih =>
    have h1 : _ + _ ≤ _ := weight_of_G hd
    have := count_le (.part p)
    simp
    omega

/-- C60: the parts returned before the first error have together at most six components for each item
of the text that is not a comment. -/
theorem parts_linear (hok : ScannerOk b.js (L.scan b.js)) (h : Yields L b ps) :
    (ps.map fun p => (Node.part p).count).sum ≤
      6 * (L.scan b.js).countP fun t => !t.item.token.isComment := by
  obtain ⟨o, hP⟩ := yields_sound hok h
  have := count_parts hP
  have hv : (visible L b).length = (L.scan b.js).countP fun t => !t.item.token.isComment :=
    List.countP_eq_length_filter.symm
  omega

/-- C60 for whatever a call returns, also after errors: it has at most six components for each item of
the text. -/
theorem returned_linear {n : Node} (hok : ScannerOk b.js (L.scan b.js)) (h : Returned L b n) :
    n.count ≤ 6 * (L.scan b.js).length := by
  obtain ⟨Γ, i, o, ⟨s, hr, rfl, hm⟩, hG⟩ := returned_sound hok h
  have h1 : n.weight + 6 * o.length ≤ 6 * s.pend.length := by
    obtain ⟨p, rfl, hG | hG⟩ | ⟨e, rfl, hG⟩ := hG
    · exact weight_of_G hG
    · exact weight_of_G hG
    · have : _ + 3 + _ ≤ _ := weight_of_G hG
      omega
  have h2 := count_le n
  have h3 : s.pend.length ≤ (L.scan b.js).length := by
    obtain ⟨pre, t, e, -⟩ := (reachable_reading hok hr).look
    have h4 := List.length_filter_le (fun t : Tok => !t.item.token.isComment) s.rest
    rw [e]
    unfold St.pend
    split
    all_goals simp
    all_goals omega
  omega

/-- `({a b c})` -/
def sizeText : List Demo.Piece :=
  [Demo.p .openParen t!"(", Demo.p .openBrace t!"{", Demo.id t!"a", Demo.id t!"b", Demo.id t!"c",
    Demo.p .closeBrace t!"}", Demo.p .closeParen t!")"]

/-- The property `n`. -/
def sizeProp (n : Txt) : ObjectProperty :=
  .property (.mk (.expr (.ident n)) .none .init false false true)

/-- The tree of it. -/
def sizeTree : ProgramPart :=
  .stmt (.expr (.object [sizeProp t!"a", sizeProp t!"b", sizeProp t!"c"]))

/-- C60 on `({a b c})`, which a tolerant parser accepts: each of the names makes six components. -/
example : (match Builder.build ⟨true, false, Demo.text sizeText⟩ (Demo.lexer sizeText) with
      | .ok _ s => (parse s).outcome
      | _ => .panic) = .ok (.script [sizeTree]) ∧
    (Node.part sizeTree).count = 3 + 3 * 6 := by
  refine ⟨by kernel_rfl, ?_⟩
  simp [count_eq (.part _), count_eq (.stmt _), count_eq (.expr _), count_eq (.objProp _),
    count_eq (.prop _), count_eq (.key _), count_eq (.value _), count_eq (.leaf _), Node.slots,
    Node.kids, exprKids, stmtKids, sizeTree, sizeProp, inn, word]

end Ressa
