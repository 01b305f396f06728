import Verif.Props.Small
import Verif.Proof.SmallLines

/-!
# Lines may be broken (C62)

In the small language of C57, more line breaks change nothing, if they are neither before an item
that could continue a line nor after `return`, `break`, `continue` or `let`.  Nor does it matter if
line breaks are left out after a punctuator that cannot end a statement without semicolon.
-/

namespace Ressa

open Gr

variable {L L' : Lexer} {b b' : Builder}

/-- If the parser accepts a text of C57, it accepts the text with other line breaks, with the same
tree. -/
theorem small_wrap (fns : Bool) (hok : ScannerOk b.js (L.scan b.js))
    (hok' : ScannerOk b'.js (L'.scan b'.js)) (hb : b.tolerant = false) (hb' : b'.tolerant = false)
    (hm : b'.isModule = b.isModule) (hx : PlainKeywords L) (hx' : PlainKeywords L')
    (ht : SmallText (cfgOf L b) fns (visible L b)) (hf : smallFirst fns (visible L b))
    (hw : Wrap (cfgOf L b) (cfgOf L' b') true (visible L b) (visible L' b')) {prog : Program}
    (h : ∃ s s', b.build L = .ok () s ∧ parse s = .ok prog s') :
    ∃ s s', b'.build L' = .ok () s ∧ parse s = .ok prog s' := by
  obtain ⟨ps, hp, o, h1, h2⟩ := (small_exact fns hok hb hx ht hf prog).1 h
  refine (small_exact fns hok' hb' hx' (hw.text ht) ?_ prog).2 ⟨ps, by rw [hm]; exact hp, ?_⟩
  · exact ⟨hw.head ▸ hf.1, hw.head ▸ hf.2⟩
  · obtain ⟨_, o', h3, -, h4⟩ := h1.wrap _ _ hw nofun
    refine ⟨o', h4, ?_⟩
    rcases h2 with rfl | ⟨e, h2, rfl⟩
    · cases h3; exact .inl rfl
    · rcases h3 with _ | ⟨h5, -, -, -, -, _ | _⟩
      exact .inr ⟨_, h5.trans h2, rfl⟩

/-- If each of the two texts is the other one with other line breaks, the parser accepts both or
none. -/
theorem small_wrap_iff (fns : Bool) (hok : ScannerOk b.js (L.scan b.js))
    (hok' : ScannerOk b'.js (L'.scan b'.js)) (hb : b.tolerant = false) (hb' : b'.tolerant = false)
    (hm : b'.isModule = b.isModule) (hx : PlainKeywords L) (hx' : PlainKeywords L')
    (ht : SmallText (cfgOf L b) fns (visible L b)) (hf : smallFirst fns (visible L b))
    (hw : Wrap (cfgOf L b) (cfgOf L' b') true (visible L b) (visible L' b'))
    (hw' : Wrap (cfgOf L' b') (cfgOf L b) true (visible L' b') (visible L b)) (prog : Program) :
    (∃ s s', b.build L = .ok () s ∧ parse s = .ok prog s') ↔
      ∃ s s', b'.build L' = .ok () s ∧ parse s = .ok prog s' :=
  ⟨small_wrap fns hok hok' hb hb' hm hx hx' ht hf hw,
    small_wrap fns hok' hok hb' hb hm.symm hx' hx (hw.text ht)
      ⟨hw.head ▸ hf.1, hw.head ▸ hf.2⟩ hw'⟩

/-! ## C62 on concrete texts -/

namespace Demo

/-- Checks the hypothesis on the two texts. -/
def wrapOk (C C' : Cfg) : Bool → List Tok → List Tok → Bool
  | _, [], [] => true
  | f, t :: r, t' :: r' => t'.item.token == t.item.token && C'.text t' == C.text t &&
      (!t.nl || f || t'.nl) && (!t'.nl || t.nl || smallLine t.item.token) &&
      (!jump t.item.token || !C'.nl r' || C.nl r) &&
      wrapOk C C' (opens t.item.token) r r'
  | _, _, _ => false

theorem wrapOk_wrap {C C' : Cfg} : ∀ {f : Bool} {i i' : List Tok}, wrapOk C C' f i i' = true →
    Wrap C C' f i i'
  | _, [], [], _ => .nil
  | f, t :: r, t' :: r', h => by
    simp only [wrapOk, Bool.and_eq_true, beq_iff_eq, Bool.or_eq_true, Bool.not_eq_true'] at h
    obtain ⟨⟨⟨⟨⟨h1, h2⟩, h3⟩, h4⟩, h5⟩, h6⟩ := h
    refine .cons h1 h2 (fun h => ?_) (fun h => ?_) (fun h hn => ?_) (wrapOk_wrap h6)
    · rcases h3 with (h3 | h3) | h3
      · rw [h] at h3; cases h3
      · exact .inl h3
      · exact .inr h3
    · rcases h4 with (h4 | h4) | h4
      · rw [h] at h4; cases h4
      · exact .inl h4
      · exact .inr h4
    · rcases h5 with (h5 | h5) | h5
      · rw [h] at h5; cases h5
      · rw [hn] at h5; cases h5
      · exact h5

/-- `if (a) { x = f(b, c + 1) } else throw d; return1: while (x) break return1`. -/
def oneLine : List Piece :=
  [k .if, p .openParen t!"(", id t!"a", p .closeParen t!")", p .openBrace t!"{", id t!"x",
    p .assign t!"=", id t!"f", p .openParen t!"(", id t!"b", p .comma t!",", id t!"c",
    p .plus t!"+", n t!"1", p .closeParen t!")", p .closeBrace t!"}", k .else, k .throw, id t!"d",
    p .semiColon t!";", id t!"return1", p .colon t!":", k .while, p .openParen t!"(", id t!"x",
    p .closeParen t!")", k .break, id t!"return1"]

/-- ```
if (a) {
  x = f(b,
    c +
    1
  )
}
else
  throw
    d; return1:
while (x)
  break return1
``` -/
def manyLines : List Piece :=
  [k .if, p .openParen t!"(", id t!"a", p .closeParen t!")", p .openBrace t!"{", nl (id t!"x"),
    p .assign t!"=", id t!"f", p .openParen t!"(", id t!"b", p .comma t!",", nl (id t!"c"),
    p .plus t!"+", nl (n t!"1"), nl (p .closeParen t!")"), nl (p .closeBrace t!"}"), nl (k .else),
    nl (k .throw), nl (id t!"d"), p .semiColon t!";", id t!"return1", p .colon t!":",
    nl (k .while), p .openParen t!"(", id t!"x", p .closeParen t!")", nl (k .break), id t!"return1"]

theorem oneLine_hyp : SmallHyp true oneLine :=
  ⟨scannerOk (by simp [oneLine, PieceOk, ShapeOk, k, id, p, n]),
    rfl, plainKeywords _, smallOk_text (by kernel_rfl), nofun, fun _ => nofun⟩

/-- The hypotheses of the theorem hold of the two texts, and the first is accepted. -/
example : ∃ prog s s', (builder manyLines).build (lexer manyLines) = .ok () s ∧
    Ressa.parse s = .ok prog s' := by
  obtain ⟨hok, hb, hx, ht, hf⟩ := oneLine_hyp
  have hok' : ScannerOk (text manyLines) ((lexer manyLines).scan (text manyLines)) :=
    scannerOk (by simp [manyLines, PieceOk, ShapeOk, k, id, p, n, nl])
  have hr : (parse oneLine).isOk = true := by kernel_rfl
  have hw : Wrap (cfgOf (lexer oneLine) (builder oneLine))
      (cfgOf (lexer manyLines) (builder manyLines)) true
      (visible (lexer oneLine) (builder oneLine)) (visible (lexer manyLines) (builder manyLines)) :=
    wrapOk_wrap (by kernel_rfl)
  obtain ⟨s, hs, -⟩ := build_reading (L := lexer oneLine) (b := builder oneLine) hok
  simp only [parse, start, hs] at hr
  cases hp : Ressa.parse s with
  | ok prog s' =>
    exact ⟨prog, small_wrap (b' := builder manyLines) true hok hok' hb rfl rfl hx (plainKeywords _) ht
      hf hw ⟨s, s', hs, hp⟩⟩
  | _ => simp [hp, Res.outcome, Outcome.isOk] at hr

/-- ```
x =
  f(
    a,
    b);
y
z
``` -/
def broken : List Piece :=
  [id t!"x", p .assign t!"=", nl (id t!"f"), p .openParen t!"(", nl (id t!"a"), p .comma t!",",
    nl (id t!"b"), p .closeParen t!")", p .semiColon t!";", nl (id t!"y"), nl (id t!"z")]

/-- ```
x = f(a, b); y
z
``` -/
def joined : List Piece :=
  [id t!"x", p .assign t!"=", id t!"f", p .openParen t!"(", id t!"a", p .comma t!",",
    id t!"b", p .closeParen t!")", p .semiColon t!";", id t!"y", nl (id t!"z")]

theorem broken_hyp : SmallHyp true broken :=
  ⟨scannerOk (by simp [broken, PieceOk, ShapeOk, id, p, nl]),
    rfl, plainKeywords _, smallOk_text (by kernel_rfl), nofun, fun _ => nofun⟩

/-- Line breaks may also be left out. -/
example : ∃ prog s s', (builder joined).build (lexer joined) = .ok () s ∧
    Ressa.parse s = .ok prog s' := by
  obtain ⟨hok, hb, hx, ht, hf⟩ := broken_hyp
  have hok' : ScannerOk (text joined) ((lexer joined).scan (text joined)) :=
    scannerOk (by simp [joined, PieceOk, ShapeOk, id, p, nl])
  have hr : (parse broken).isOk = true := by kernel_rfl
  have hw : Wrap (cfgOf (lexer broken) (builder broken))
      (cfgOf (lexer joined) (builder joined)) true
      (visible (lexer broken) (builder broken)) (visible (lexer joined) (builder joined)) :=
    wrapOk_wrap (by kernel_rfl)
  obtain ⟨s, hs, -⟩ := build_reading (L := lexer broken) (b := builder broken) hok
  simp only [parse, start, hs] at hr
  cases hp : Ressa.parse s with
  | ok prog s' =>
    exact ⟨prog, small_wrap (b' := builder joined) true hok hok' hb rfl rfl hx (plainKeywords _) ht
      hf hw ⟨s, s', hs, hp⟩⟩
  | _ => simp [hp, Res.outcome, Outcome.isOk] at hr

/-- The two texts above are each the other one with other line breaks. -/
example (prog : Program) :
    (∃ s s', (builder broken).build (lexer broken) = .ok () s ∧ Ressa.parse s = .ok prog s') ↔
      ∃ s s', (builder joined).build (lexer joined) = .ok () s ∧ Ressa.parse s = .ok prog s' := by
  obtain ⟨hok, hb, hx, ht, hf⟩ := broken_hyp
  exact small_wrap_iff (b := builder broken) (b' := builder joined) true hok
    (scannerOk (by simp [joined, PieceOk, ShapeOk, id, p, nl])) hb rfl rfl hx (plainKeywords _) ht hf
    (wrapOk_wrap (by kernel_rfl)) (wrapOk_wrap (by kernel_rfl)) prog

end Demo

end Ressa
