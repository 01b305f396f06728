import Verif.Proof.Brackets
import Verif.Props.AfterErrors
import Verif.Props.Reading

/-!
# Brackets (C54)

`Balanced` reads the items with a stack of open brackets.  `PlainText` rules out that a bracket
stands for a name: the parser takes any item for a name after a dot and in the lists of import and
export declarations, so that `a.)` is an expression.
-/

namespace Ressa
open Gr

theorem reachable_clean {L : Lexer} {b : Builder} {s : St} (hp : PlainText b.js (L.scan b.js))
    (hr : Reachable L b s) : Clean (cfgOf L b) s.pend := by
  have hc := clean_of_plain hp
  rw [St.pend]
  split
  · trivial
  obtain ⟨pre, h1, h2⟩ := items_read_in_order hr
  have hv : visible L b = pre.filter (fun t => !t.item.token.isComment) ++
      s.rest.filter (fun t => !t.item.token.isComment) := by rw [visible, h1, List.filter_append]
  rw [hv] at hc
  rw [h2, lastItem]
  generalize pre.filter (fun t => !t.item.token.isComment) = p at hc
  cases hl : p.getLast? with
  | none =>
    rw [List.getLast?_eq_none_iff] at hl
    subst hl
    exact ⟨fun h => by simp [noItem, Token.isBracket, Token.opens, Token.closes] at h,
      fun _ _ _ => ⟨fun h => (by cases h), fun h => (by cases h), fun h => (by cases h)⟩, hc⟩
  | some t =>
    obtain ⟨p', rfl⟩ := List.getLast?_eq_some_iff.1 hl
    rw [List.append_assoc] at hc
    exact ⟨hc.suffix.1, hc.suffix.2.1, hc.suffix.2.2⟩

/-- The items that make up a part are balanced, also after errors. -/
theorem next_balanced {L : Lexer} {b : Builder} {s s' : St} {p : ProgramPart}
    (hok : ScannerOk b.js (L.scan b.js)) (hp : PlainText b.js (L.scan b.js))
    (ht : b.tolerant = false) (hr : Reachable L b s) (h : next s = .ok (some p) s') :
    ∃ used, s.pend = used ++ s'.pend ∧ Balanced used := by
  have hs : Shut (cfgOf L b) [] s.pend s'.pend := by
    rcases (next_derivable false nofun hok hr h).2 with h | h
    · exact even_of_G ht h
    · exact even_of_G ht h
  obtain ⟨u, h1, h2⟩ := hs
  exact ⟨u, h1, h2 (reachable_clean hp hr) []⟩

/-- The items that make up an expression are balanced. -/
theorem expression_balanced {L : Lexer} {b : Builder} {s s' : St} {e : Expr}
    (hok : ScannerOk b.js (L.scan b.js)) (hp : PlainText b.js (L.scan b.js))
    (ht : b.tolerant = false) (hr : Reachable L b s) (h : full.expression s = .ok e s') :
    ∃ used, s.pend = used ++ s'.pend ∧ Balanced used := by
  obtain ⟨u, h1, h2⟩ : Shut (cfgOf L b) [] s.pend s'.pend :=
    even_of_G ht (expression_derivable false nofun hok hr h).2
  exact ⟨u, h1, h2 (reachable_clean hp hr) []⟩

/-- C54: the brackets of an accepted text are balanced. -/
theorem brackets_balanced {L : Lexer} {b : Builder} {s s' : St} {prog : Program}
    (hok : ScannerOk b.js (L.scan b.js)) (hp : PlainText b.js (L.scan b.js))
    (ht : b.tolerant = false) (hb : b.build L = .ok () s) (h : parse s = .ok prog s') :
    Balanced (L.scan b.js) := by
  obtain ⟨ps, o, -, hP, ho⟩ := parse_sound hok hb h
  obtain ⟨u, h1, h2⟩ := even_of_parts (C := cfgOf L b) ht hP
  have h3 := h2 (clean_of_plain hp) []
  rw [Balanced, ← openAfter_filter]
  change openAfter [] (visible L b) = _
  rw [h1, openAfter_append]
  simp only [List.nil_append] at h3
  rw [h3]
  rcases ho with rfl | ⟨e, he, rfl⟩
  · rfl
  · simp [openAfter, he, Token.opens, Token.closes]

/-- `if (a[0]) { f({}); }` -/
def bracketText : List Demo.Piece :=
  [Demo.k .if, Demo.p .openParen t!"(", Demo.id t!"a", Demo.p .openBracket t!"[", Demo.n t!"0",
    Demo.p .closeBracket t!"]", Demo.p .closeParen t!")", Demo.p .openBrace t!"{", Demo.id t!"f",
    Demo.p .openParen t!"(", Demo.p .openBrace t!"{", Demo.p .closeBrace t!"}",
    Demo.p .closeParen t!")", Demo.p .semiColon t!";", Demo.p .closeBrace t!"}"]

instance (t t' : Token) : Decidable (PlainPair t t') := by unfold PlainPair; infer_instance

/-- Checks all pairs of neighbours. -/
def pairsOk : List Tok → Bool
  | t :: t' :: r => decide (PlainPair t.item.token t'.item.token) && pairsOk (t' :: r)
  | _ => true

theorem pairsOk_split {l} (h : pairsOk l = true) (pre t t' post) (hl : l = pre ++ t :: t' :: post) :
    PlainPair t.item.token t'.item.token := by
  subst hl
  induction pre with
  | nil => simp [pairsOk] at h; exact h.1
  | cons a pre ih =>
    refine ih ?_
    cases pre <;> simp [pairsOk] at h <;> simp [pairsOk, h]

theorem bracketText_plain :
    PlainText (Demo.text bracketText) ((Demo.lexer bracketText).scan (Demo.text bracketText)) := by
  refine ⟨?_, fun pre t t' post h => pairsOk_split (l := _) (by kernel_rfl) pre t t' post h⟩
  have : ((Demo.lexer bracketText).scan (Demo.text bracketText)).all (fun t =>
      !t.item.token.isBracket ||
        ((sliceB (Demo.text bracketText) t.item.span.start t.item.span.stop).map (·.length)) == some 1) =
      true := by kernel_rfl
  intro t ht hb
  have h := List.all_eq_true.1 this t ht
  simp only [hb, Bool.not_true, Bool.false_or, beq_iff_eq, Option.map_eq_some_iff] at h
  obtain ⟨a, h1, h2⟩ := h
  obtain ⟨c, rfl⟩ := List.length_eq_one_iff.1 h2
  exact ⟨c, h1⟩

/-- C54 on that text. -/
example : ScannerOk (Demo.text bracketText) ((Demo.lexer bracketText).scan (Demo.text bracketText)) ∧
    PlainText (Demo.text bracketText) ((Demo.lexer bracketText).scan (Demo.text bracketText)) ∧
    (Demo.parse bracketText).isOk = true ∧
    openAfter [] ((Demo.lexer bracketText).scan []) = some [] ∧
    openAfter [] (((Demo.lexer bracketText).scan []).take 11) =
      some [.brace, .paren, .brace] := by
  refine ⟨Demo.scannerOk (by simp [bracketText, Demo.PieceOk, ShapeOk, Demo.k, Demo.id, Demo.p, Demo.n]),
    bracketText_plain, ?_, ?_, ?_⟩ <;> kernel_rfl

/-- `a.)` is accepted, and `while (a` is with tolerance: the hypotheses are needed. -/
example :
    (Demo.parse [Demo.id t!"a", Demo.p .period t!".", Demo.p .closeParen t!")"]).isOk = true ∧
    (Demo.parse [Demo.k .while, Demo.p .openParen t!"(", Demo.id t!"a", Demo.p .openBrace t!"{"] true).isOk =
      false ∧
    (Demo.parse [Demo.k .while, Demo.p .openParen t!"(", Demo.id t!"a", Demo.id t!"b"] true).isOk =
      true := by
  refine ⟨?_, ?_, ?_⟩ <;> kernel_rfl

end Ressa
