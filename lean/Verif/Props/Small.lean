import Verif.Proof.SmallBack
import Verif.Proof.DemoOk
import Verif.Props.Accept

/-!
# A small language, exactly (C57)

On texts over the vocabulary of the small language (`Verif.Spec.Small`) the parser accepts exactly
the programs of its textbook grammar, and returns their trees.
-/

namespace Ressa

open Gr

variable {L : Lexer} {b : Builder}

/-- The scanner does not take a keyword of the vocabulary, other than `let`, for a name. -/
def PlainKeywords (L : Lexer) : Prop :=
  ∀ k, smallToken true (.keyword k) = true → k ≠ .let →
    L.ext.isStrictReserved (.keyword k) = false

/-- Statements up to the end of the text. -/
def SmallProgram (L : Lexer) (b : Builder) (ps : List ProgramPart) : Prop :=
  ∃ o, Small (cfgOf L b) ⟨false, true⟩ [] (.stmts ps) (visible L b) o ∧
    (o = [] ∨ ∃ e, e.item.token = .eof ∧ o = [e])

namespace Gr

theorem parts_small {C : Cfg} {fns past ps i o} (hC : C.tolerant = false)
    (hx : ∀ k, smallToken true (.keyword k) = true → k ≠ .let →
      C.ext.isStrictReserved (.keyword k) = false)
    (h : Parts C Env.top past ps i o) (hi : Ready C fns i)
    (hp : past = true ∨ head i ≠ .string) (hf : bracketOk fns i) :
    Small C ⟨false, true⟩ [] (.stmts ps) i o := by
  induction h with
  | nil => exact .stop
  | dir hs => rcases hp with hp | hp <;> contradiction
  | item _ _ h _ ih =>
    obtain ⟨h1, h2⟩ := small_back hC hx h [] rfl hi hf
    exact .more h1 (ih (h1.text hi) (.inl rfl) h2)

end Gr

theorem ready (fns : Bool) (hok : ScannerOk b.js (L.scan b.js))
    (ht : SmallText (cfgOf L b) fns (visible L b)) : Ready (cfgOf L b) fns (visible L b) := by
  refine .of ht fun t hm => ?_
  obtain ⟨raw, hr, hs⟩ := hok.items t (List.mem_filter.1 hm).1
  have hc : (cfgOf L b).text t = raw := by
    show (sliceB b.js _ _).getD [] = raw
    rw [hr]; rfl
  rw [wordOk, hc]
  constructor <;> intro h <;> rw [h] at hs
  · obtain ⟨pat, flags, h, -⟩ := hs
    exact ⟨_, h⟩
  · exact hs

/-- The parser accepts the text with a tree exactly if the grammar gives the text that tree. -/
theorem small_exact (fns : Bool) (hok : ScannerOk b.js (L.scan b.js)) (hb : b.tolerant = false)
    (hx : PlainKeywords L) (ht : SmallText (cfgOf L b) fns (visible L b))
    (hf : smallFirst fns (visible L b)) (prog : Program) :
    (∃ s s', b.build L = .ok () s ∧ parse s = .ok prog s') ↔
      ∃ ps, prog = (if b.isModule then .mod ps else .script ps) ∧ SmallProgram L b ps := by
  constructor
  · rintro ⟨s, s', h1, h2⟩
    obtain ⟨ps, o, hp, h3, h4⟩ := parse_sound hok h1 h2
    exact ⟨ps, hp, o, parts_small hb hx h3 (ready fns hok ht) (.inr hf.1) hf.2, h4⟩
  · rintro ⟨ps, rfl, o, h1, h2⟩
    refine core_accepted hok ((small_fit (C := cfgOf L b) hx h1 (ready fns hok ht)).2 ?_ false (.inr hf.1))
    rcases h2 with rfl | ⟨e, h2, rfl⟩
    · rfl
    · exact h2

/-- The grammar is unambiguous on these texts. -/
theorem small_unique (fns : Bool) {ps ps' : List ProgramPart}
    (hok : ScannerOk b.js (L.scan b.js)) (hx : PlainKeywords L)
    (ht : SmallText (cfgOf L b) fns (visible L b)) (hf : smallFirst fns (visible L b))
    (h : SmallProgram L b ps) (h' : SmallProgram L b ps') : ps = ps' := by
  have key : ∀ {ps}, SmallProgram L b ps →
      ∃ o, Core (cfgOf L b) Env.top (.parts false ps) (visible L b) o := by
    rintro ps ⟨o, h1, h2⟩
    refine ⟨o, (small_fit (C := cfgOf L b) hx h1 (ready fns hok ht)).2 ?_ false (.inr hf.1)⟩
    rcases h2 with rfl | ⟨e, h2, rfl⟩
    · rfl
    · exact h2
  obtain ⟨o, h1⟩ := key h
  obtain ⟨o', h2⟩ := key h'
  exact core_unique hok h1 h2

/-! ## C57 on concrete texts -/

namespace Demo

/-- Checks what may follow `for`. -/
def forOkB (C : Cfg) : List Tok → Bool
  | [] => true
  | t :: r => C.text t != t!"of" &&
      (t.item.token != .punct .semiColon || head r != .punct .openBrace) && forOkB C r

theorem forOkB_ok {C : Cfg} {l : List Tok} (h : forOkB C l = true) : forOk C l := by
  induction l with
  | nil => trivial
  | cons t l ih =>
    simp only [forOkB, Bool.and_eq_true, bne_iff_ne, Bool.or_eq_true] at h
    exact ⟨h.1.1, fun ht => h.1.2.resolve_left (by simpa [Is] using ht), ih h.2⟩

/-- Checks what may follow `const`. -/
def noOfB (C : Cfg) : List Tok → Bool
  | [] => true
  | t :: r => C.text t != t!"of" && (!r.isEmpty || t.item.token == .eof) && noOfB C r

theorem noOfB_ok {C : Cfg} {l : List Tok} (h : noOfB C l = true) : noOf C l := by
  induction l with
  | nil => trivial
  | cons t l ih =>
    simp only [noOfB, Bool.and_eq_true, bne_iff_ne, Bool.or_eq_true, beq_iff_eq] at h
    exact ⟨h.1.1, fun ht => h.1.2.resolve_left (by simp [ht]), ih h.2⟩

/-- Checks what concerns `let` and `const`. -/
def letOkB (C : Cfg) (t : Tok) (r : List Tok) : Bool :=
  (t.item.token != .keyword .let || head r != .ident || !C.nl r) &&
    (t.item.token != .punct .openParen || head r != .keyword .let || head r.tail == .ident) &&
    (t.item.token != .keyword .const || noOfB C r) &&
    (t.item.token != .punct .assign || C.text t != t!"of")

theorem letOkB_ok {C : Cfg} {t : Tok} {r : List Tok} (h : letOkB C t r = true) : letOk C t r := by
  simp only [letOkB, Bool.and_eq_true, bne_iff_ne, Bool.or_eq_true, Bool.not_eq_true',
    beq_iff_eq] at h
  obtain ⟨⟨⟨h1, h2⟩, h3⟩, h4⟩ := h
  exact ⟨fun a b => h1.resolve_left fun h => h.elim (· a) (· b),
    fun a b => h2.resolve_left fun h => h.elim (· a) (· b),
    fun a => noOfB_ok (h3.resolve_left (· a)), fun a => h4.resolve_left (· a)⟩

/-- Checks the hypothesis on the text. -/
def smallOk (C : Cfg) (fns : Bool) : List Tok → Bool
  | [] => true
  | t :: r => smallToken fns t.item.token && C.text t != t!"async" && C.text t != t!"await" &&
      (!t.nl || smallLine t.item.token) &&
      (match r with
        | [] => true
        | t' :: _ => smallPair t.item.token t'.item.token &&
            (!fns || fnPair t.item.token t'.item.token)) &&
      (t.item.token != .keyword .function || plainHead r) &&
      (t.item.token != .keyword .catch || head r == .punct .openBrace || plainHead r) &&
      (t.item.token != .keyword .for || forOkB C r) &&
      letOkB C t r && smallOk C fns r

theorem smallOk_text {C : Cfg} {fns : Bool} {l : List Tok} (h : smallOk C fns l = true) :
    SmallText C fns l := by
  induction l with
  | nil => trivial
  | cons t l ih =>
    simp only [smallOk, Bool.and_eq_true, bne_iff_ne, Bool.or_eq_true, Bool.not_eq_true',
      beq_iff_eq] at h
    obtain ⟨⟨⟨⟨⟨⟨⟨⟨⟨h1, h2⟩, h3⟩, h4⟩, h5⟩, h6⟩, h7⟩, h9⟩, h11⟩, h8⟩ := h
    refine ⟨h1, h2, h3, fun hn => h4.resolve_left (by simp [hn]), ?_, fun h => ?_, fun h => ?_,
      fun h => forOkB_ok (h9.resolve_left (by simp [h])), letOkB_ok h11, ih h8⟩
    · rintro t' r rfl
      simp only [Bool.and_eq_true, Bool.or_eq_true, Bool.not_eq_true'] at h5
      exact ⟨h5.1, fun hf => h5.2.resolve_left (by simp [hf])⟩
    · exact h6.resolve_left (by simp [h])
    · rcases h7 with (h7 | h7) | h7
      · exact absurd h h7
      · exact .inl h7
      · exact .inr h7

theorem plainKeywords (l : List Piece) : PlainKeywords (lexer l) := by
  intro k h h'
  cases k <;> first | rfl | exact absurd rfl h' | cases h

/-- `(`. -/
private def po : Piece := p .openParen t!"("
/-- `)`. -/
private def pc : Piece := p .closeParen t!")"
/-- `{`. -/
private def bo : Piece := p .openBrace t!"{"
/-- `}`. -/
private def bc : Piece := p .closeBrace t!"}"
/-- `=`. -/
private def eq : Piece := p .assign t!"="
/-- `,`. -/
private def co : Piece := p .comma t!","
/-- `;`. -/
private def se : Piece := p .semiColon t!";"

/-- A template without substitutions. -/
private def tp (s : Txt) : Piece := ⟨false, .template .noSub, s⟩

/-- ```
function fact(n, acc) { if (n <= 1) return acc; return fact(n - 1, acc * n) }
var f = function () { return this }, o = new C, if
outer: while (x++) { try { switch (x) { case 1: f(function (e) { }); break outer; default: throw "y" } }
  catch (e) { continue outer } finally { x.y[0] += a ? b : -c } }
do x = 2 ** 3 ** y; while (x)
``` -/
def smallText : List Piece :=
  [k .function, id t!"fact", po, id t!"n", co, id t!"acc", pc, bo, k .if, po, id t!"n",
    p .lessThanEqual t!"<=", n t!"1", pc, k .return, id t!"acc", se, k .return, id t!"fact", po,
    id t!"n", p .minus t!"-", n t!"1", co, id t!"acc", p .asterisk t!"*", id t!"n", pc, bc,
    nl (k .var), id t!"f", eq, k .function, po, pc, bo, k .return, k .this, bc, co, id t!"o", eq,
    k .new, id t!"C", co, k .if,
    nl (id t!"outer"), p .colon t!":", k .while, po, id t!"x", p .increment t!"++", pc, bo, k .try,
    bo, k .switch, po, id t!"x", pc, bo, k .case, n t!"1", p .colon t!":", id t!"f", po,
    k .function, po, id t!"e", pc, bo, bc, pc, se, k .break, id t!"outer", se, k .default,
    p .colon t!":", k .throw, str t!"'y'", bc, bc,
    nl (k .catch), po, id t!"e", pc, bo, k .continue, id t!"outer", bc, k .finally, bo, id t!"x",
    p .period t!".", id t!"y", p .openBracket t!"[", n t!"0", p .closeBracket t!"]",
    p .addAssign t!"+=", id t!"a", p .questionMark t!"?", id t!"b", p .colon t!":", p .minus t!"-",
    id t!"c", bc, bc,
    nl (k .do), id t!"x", eq, n t!"2", p .exponent t!"**", n t!"3", p .exponent t!"**", id t!"y",
    se, k .while, po, id t!"x", pc]

/-- ```
for (var i = 0, n = (k in l); i < n; i++) with (l) { for (;;) break }
z = /[a]/g
for (var q in l) for (x.y in l, m) for (a, b in c; ; ) ; for (1 in l) ; for (z; ; ) x
``` -/
def smallLoops : List Piece :=
  [k .for, po, k .var, id t!"i", eq, n t!"0", co, id t!"n", eq, po, id t!"k", k .in, id t!"l", pc,
    se, id t!"i", p .lessThan t!"<", id t!"n", se, id t!"i", p .increment t!"++", pc,
    k .with, po, id t!"l", pc, bo, k .for, po, se, se, pc, k .break, bc,
    nl (id t!"z"), eq, ⟨false, .regex, t!"/[a]/g"⟩,
    nl (k .for), po, k .var, id t!"q", k .in, id t!"l", pc,
    k .for, po, id t!"x", p .period t!".", id t!"y", k .in, id t!"l", co, id t!"m", pc,
    k .for, po, id t!"a", co, id t!"b", k .in, id t!"c", se, se, pc, se,
    k .for, po, n t!"1", k .in, id t!"l", pc, se,
    k .for, po, id t!"z", se, se, pc, id t!"x"]

/-- ```
const a = 1, b = a in c; let x, y = let + 1; if (a) { let z }
for (let i = 0, n; i < n; ++i) for (let k in o) for (const k in o) let = k
``` -/
def smallLets : List Piece :=
  [k .const, id t!"a", eq, n t!"1", co, id t!"b", eq, id t!"a", k .in, id t!"c", se,
    k .let, id t!"x", co, id t!"y", eq, k .let, p .plus t!"+", n t!"1", se,
    k .if, po, id t!"a", pc, bo, k .let, id t!"z", bc,
    nl (k .for), po, k .let, id t!"i", eq, n t!"0", co, id t!"n", se, id t!"i", p .lessThan t!"<",
    id t!"n", se, p .increment t!"++", id t!"i", pc,
    k .for, po, k .let, id t!"k", k .in, id t!"o", pc,
    k .for, po, k .const, id t!"k", k .in, id t!"o", pc, k .let, eq, id t!"k"]

/-- `if (a) const b = 1`. -/
def smallConstIf : List Piece :=
  [k .if, po, id t!"a", pc, k .const, id t!"b", eq, n t!"1"]

/-- `const a, b = 1`. -/
def smallConst : List Piece := [k .const, id t!"a", co, id t!"b", eq, n t!"1"]

/-- `for (x in y; ; ) z`. -/
def smallIn : List Piece :=
  [k .for, po, id t!"x", k .in, id t!"y", se, se, pc, id t!"z"]

/-- `[x, , y.z] = (a, 1); --(b = 2)` has no functions; the last part is a quirk. -/
def smallArrays : List Piece :=
  [p .openBracket t!"[", id t!"x", co, co, id t!"y", p .period t!".", id t!"z",
    p .closeBracket t!"]", eq, po, id t!"a", co, n t!"1", pc, se, p .decrement t!"--", po, id t!"b",
    eq, n t!"2", pc]

/-- ```
x = `a`.b + f`c` ``; `d`++
```
The last statement is a quirk, and would not be allowed in a text with functions. -/
def smallTemplates : List Piece :=
  [id t!"x", eq, tp t!"`a`", p .period t!".", id t!"b", p .plus t!"+", id t!"f", tp t!"`c`", tp t!"``",
    se, tp t!"`d`", p .increment t!"++"]

/-- `x = f`a` 1`. -/
def smallTagged : List Piece := [id t!"x", eq, id t!"f", tp t!"`a`", n t!"1"]

/-- `x = (1 +) 2`. -/
def smallWrong : List Piece := [id t!"x", eq, po, n t!"1", p .plus t!"+", pc, n t!"2"]

/-- `x = null`.  *(quirk)* -/
def smallNull : List Piece := [id t!"x", eq, ⟨false, .null, t!"null"⟩]

/-- `a: a: x`. -/
def smallLabels : List Piece :=
  [id t!"a", p .colon t!":", id t!"a", p .colon t!":", id t!"x"]

/-- The hypotheses of the theorems, of a text. -/
def SmallHyp (fns : Bool) (l : List Piece) : Prop :=
  ScannerOk (text l) ((lexer l).scan (text l)) ∧ (builder l).tolerant = false ∧
    PlainKeywords (lexer l) ∧
    SmallText (cfgOf (lexer l) (builder l)) fns (visible (lexer l) (builder l)) ∧
    smallFirst fns (visible (lexer l) (builder l))

theorem smallText_hyp : SmallHyp true smallText :=
  ⟨scannerOk (by simp [smallText, PieceOk, ShapeOk, k, id, p, n, nl, str, po, pc, bo, bc, eq, co, se]),
    rfl, plainKeywords _, smallOk_text (by kernel_rfl), nofun, fun _ => nofun⟩

theorem smallArrays_hyp : SmallHyp false smallArrays :=
  ⟨scannerOk (by simp [smallArrays, PieceOk, ShapeOk, id, p, n, po, pc, eq, co, se]),
    rfl, plainKeywords _, smallOk_text (by kernel_rfl), nofun, nofun⟩

theorem smallLoops_hyp : SmallHyp true smallLoops :=
  ⟨scannerOk (by
      simp [smallLoops, PieceOk, ShapeOk, k, id, p, n, nl, po, pc, bo, bc, eq, co, se]
      exact ⟨['[', 'a', ']'], ['g'], rfl, by decide⟩),
    rfl, plainKeywords _, smallOk_text (by kernel_rfl), nofun, fun _ => nofun⟩

theorem smallTemplates_hyp : SmallHyp false smallTemplates :=
  ⟨scannerOk (by
      simp [smallTemplates, PieceOk, ShapeOk, id, p, tp, eq, se]
      exact ⟨⟨['a'], rfl⟩, ⟨['c'], rfl⟩, ⟨['d'], rfl⟩⟩),
    rfl, plainKeywords _, smallOk_text (by kernel_rfl), nofun, nofun⟩

theorem smallTagged_hyp : SmallHyp true smallTagged :=
  ⟨scannerOk (by
      simp [smallTagged, PieceOk, ShapeOk, id, n, p, tp, eq]
      exact ⟨['a'], rfl⟩),
    rfl, plainKeywords _, smallOk_text (by kernel_rfl), nofun, fun _ => nofun⟩

theorem smallLets_hyp : SmallHyp true smallLets :=
  ⟨scannerOk (by simp [smallLets, PieceOk, ShapeOk, k, id, p, n, nl, po, pc, bo, bc, eq, co, se]),
    rfl, plainKeywords _, smallOk_text (by kernel_rfl), nofun, fun _ => nofun⟩

theorem smallConst_hyp : SmallHyp true smallConst :=
  ⟨scannerOk (by simp [smallConst, PieceOk, ShapeOk, k, id, p, n, eq, co]),
    rfl, plainKeywords _, smallOk_text (by kernel_rfl), nofun, fun _ => nofun⟩

theorem smallConstIf_hyp : SmallHyp true smallConstIf :=
  ⟨scannerOk (by simp [smallConstIf, PieceOk, ShapeOk, k, id, p, n, eq, po, pc]),
    rfl, plainKeywords _, smallOk_text (by kernel_rfl), nofun, fun _ => nofun⟩

theorem smallIn_hyp : SmallHyp true smallIn :=
  ⟨scannerOk (by simp [smallIn, PieceOk, ShapeOk, k, id, po, pc, p, se]),
    rfl, plainKeywords _, smallOk_text (by kernel_rfl), nofun, fun _ => nofun⟩

theorem smallWrong_hyp : SmallHyp true smallWrong :=
  ⟨scannerOk (by simp [smallWrong, PieceOk, ShapeOk, id, p, n, po, pc, eq]),
    rfl, plainKeywords _, smallOk_text (by kernel_rfl), nofun, fun _ => nofun⟩

theorem smallNull_hyp : SmallHyp true smallNull :=
  ⟨scannerOk (by simp [smallNull, PieceOk, ShapeOk, id, p, eq]),
    rfl, plainKeywords _, smallOk_text (by kernel_rfl), nofun, fun _ => nofun⟩

theorem smallLabels_hyp : SmallHyp true smallLabels :=
  ⟨scannerOk (by simp [smallLabels, PieceOk, ShapeOk, id, p]),
    rfl, plainKeywords _, smallOk_text (by kernel_rfl), nofun, fun _ => nofun⟩

/-- What the parser accepts has a tree … -/
theorem small_some {fns l} (h : SmallHyp fns l) (hr : (parse l).isOk = true) :
    ∃ ps, SmallProgram (lexer l) (builder l) ps := by
  obtain ⟨hok, hb, hx, ht, hf⟩ := h
  obtain ⟨s, hs, -⟩ := build_reading (L := lexer l) (b := builder l) hok
  simp only [parse, start, hs] at hr
  cases hp : Ressa.parse s with
  | ok prog s' =>
    obtain ⟨ps, -, h⟩ := (small_exact fns hok hb hx ht hf prog).1 ⟨s, s', hs, hp⟩
    exact ⟨ps, h⟩
  | _ => simp [hp, Res.outcome, Outcome.isOk] at hr

/-- … and what it rejects has none. -/
theorem small_none {fns l} (h : SmallHyp fns l) (hr : (parse l).isOk = false) (ps) :
    ¬ SmallProgram (lexer l) (builder l) ps := by
  intro h'
  obtain ⟨hok, hb, hx, ht, hf⟩ := h
  obtain ⟨s, s', hs, hp⟩ := (small_exact fns hok hb hx ht hf _).2 ⟨ps, rfl, h'⟩
  change (builder l).build (lexer l) = _ at hs
  simp [parse, start, hs, hp, Res.outcome, Outcome.isOk] at hr

example : ∃ ps, SmallProgram (lexer smallText) (builder smallText) ps :=
  small_some smallText_hyp (by kernel_rfl)
example : ∃ ps, SmallProgram (lexer smallArrays) (builder smallArrays) ps :=
  small_some smallArrays_hyp (by kernel_rfl)
example : ∃ ps, SmallProgram (lexer smallLoops) (builder smallLoops) ps :=
  small_some smallLoops_hyp (by kernel_rfl)
example : ∃ ps, SmallProgram (lexer smallLets) (builder smallLets) ps :=
  small_some smallLets_hyp (by kernel_rfl)
example : ∃ ps, SmallProgram (lexer smallTemplates) (builder smallTemplates) ps :=
  small_some smallTemplates_hyp (by kernel_rfl)
example (ps) : ¬ SmallProgram (lexer smallTagged) (builder smallTagged) ps :=
  small_none smallTagged_hyp (by kernel_rfl) ps
example (ps) : ¬ SmallProgram (lexer smallConst) (builder smallConst) ps :=
  small_none smallConst_hyp (by kernel_rfl) ps
example (ps) : ¬ SmallProgram (lexer smallConstIf) (builder smallConstIf) ps :=
  small_none smallConstIf_hyp (by kernel_rfl) ps
example (ps) : ¬ SmallProgram (lexer smallIn) (builder smallIn) ps :=
  small_none smallIn_hyp (by kernel_rfl) ps
example (ps) : ¬ SmallProgram (lexer smallWrong) (builder smallWrong) ps :=
  small_none smallWrong_hyp (by kernel_rfl) ps
example (ps) : ¬ SmallProgram (lexer smallNull) (builder smallNull) ps :=
  small_none smallNull_hyp (by kernel_rfl) ps
example (ps) : ¬ SmallProgram (lexer smallLabels) (builder smallLabels) ps :=
  small_none smallLabels_hyp (by kernel_rfl) ps

end Demo

end Ressa
