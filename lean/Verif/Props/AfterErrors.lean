import Verif.Proof.Occurs
import Verif.Proof.DemoOk

/-!
# Results after errors (C53)

`s.pend` are the items that the parser has not consumed, without the comments, and `s.ctx.env` is
what the parser takes to surround it: strict code, an async function, a function body, labels; with
`e`, which is possible for texts without the word `get`, also generator functions and methods, where
`yield` is an operator.
-/

namespace Ressa
open Gr Tree

/-- Whatever was called before, also with errors, a part that `next` returns is a phrase of the
grammar that consists of the next items: a directive or a statement list item, in the environment
in which the parser was. -/
theorem next_derivable {L : Lexer} {b : Builder} {s s' : St} {p : ProgramPart}
    (e : Bool) (hg : e = true → NoGet L b)
    (hok : ScannerOk b.js (L.scan b.js)) (hr : Reachable L b s) (h : next s = .ok (some p) s') :
    s'.ctx.env e = s.ctx.env e ∧
    (G { cfgOf L b with exact := e } (s.ctx.env e) (.directive p) s.pend s'.pend ∨
      G { cfgOf L b with exact := e } (s.ctx.env e) (.listItem p) s.pend s'.pend) := by
  have hm : 1 ≤ mu s := by have := part_consumes h; omega
  obtain ⟨-, o, ho, hG⟩ := next_sound (reachable_at e (fun h => (hg h).text) hok hr hm) h
  rw [ho.pend]
  exact ⟨ho.env, hG.imp (·.2.2) (·.2)⟩

/-- Likewise for `parse_expression`. -/
theorem expression_derivable {L : Lexer} {b : Builder} {s s' : St} {x : Expr}
    (e : Bool) (hg : e = true → NoGet L b)
    (hok : ScannerOk b.js (L.scan b.js)) (hr : Reachable L b s)
    (h : full.expression s = .ok x s') :
    s'.ctx.env e = s.ctx.env e ∧
    G { cfgOf L b with exact := e } (s.ctx.env e) (.expression x) s.pend s'.pend := by
  have hm : 1 ≤ mu s := by have := expression_consumes h; omega
  obtain ⟨o, ho, hG⟩ := full_ok.expression _ _ _ _ _ (reachable_at e (fun h => (hg h).text) hok hr hm) h
  rw [ho.pend]
  exact ⟨ho.env, hG⟩

/-- Likewise for `parse`: the parts are derivable one after the other from the items that were left,
and no item but the end of file remains. -/
theorem parse_derivable {L : Lexer} {b : Builder} {s s' : St} {prog : Program}
    (e : Bool) (hg : e = true → NoGet L b)
    (hok : ScannerOk b.js (L.scan b.js)) (hr : Reachable L b s) (h : parse s = .ok prog s') :
    ∃ ps, prog = (if b.isModule then .mod ps else .script ps) ∧
      (ps = [] ∨ Parts { cfgOf L b with exact := e } (s.ctx.env e) s.ctx.pastProlog ps s.pend s'.pend) ∧
      (s'.pend = [] ∨ ∃ e, e.item.token = .eof ∧ s'.pend = [e]) := by
  obtain ⟨ps, hc, hn, rfl⟩ := (parse_ok_iff ..).1 h
  have hr' : Reachable L b s' := by
    obtain ⟨s0, h0, hcs⟩ := hr
    exact ⟨s0, h0, hcs.tail (.parseOk h)⟩
  refine ⟨ps, by rw [programOf, (reachable_settings hr').2.2.1], ?_, ?_⟩
  · cases ps with
    | nil => exact .inl rfl
    | cons p ps =>
      have hm : 1 ≤ mu s := by have := hc.mu_le; simp at this; omega
      obtain ⟨o, ho, hP⟩ := collects_sound (reachable_at e (fun h => (hg h).text) hok hr hm) hc
      rw [ho.pend]
      exact .inr hP
  · have he := ((none_iff_eof _ _).1 hn).1
    have hrest := eof_rest hok (reachable_reading hok hr') he
    rw [St.pend, hrest]
    split
    · exact .inl rfl
    · exact .inr ⟨_, he, rfl⟩

/-- `function f() { l: l: return b; }` -/
def brokenText : List Demo.Piece :=
  [Demo.k .function, Demo.id t!"f", Demo.p .openParen t!"(", Demo.p .closeParen t!")",
    Demo.p .openBrace t!"{", Demo.id t!"l", Demo.p .colon t!":", Demo.id t!"l", Demo.p .colon t!":",
    Demo.k .return, Demo.id t!"b", Demo.p .semiColon t!";", Demo.p .closeBrace t!"}"]

/-- C53 on that text: the first call fails, as the label occurs twice.  The second returns the
return statement, as the parser still takes itself to be in a function body (and in a statement
with the label).  So C22 and C49 cannot hold after errors. -/
example : ScannerOk (Demo.text brokenText) ((Demo.lexer brokenText).scan (Demo.text brokenText)) ∧
    (next (Demo.state brokenText)).outcome.isOk = false ∧
    ((nextResults 3 (Demo.state brokenText)).drop 1).head? =
      some (.ok (some (.stmt (.return (some (.ident t!"b")))))) ∧
    (Demo.state brokenText).ctx.env = Env.top ∧
    (Demo.after next (Demo.state brokenText)).ctx.env =
      { Env.top with inFn := true, labels := [t!"$l"] } := by
  refine ⟨Demo.scannerOk (by simp [brokenText, Demo.PieceOk, ShapeOk, Demo.k, Demo.id, Demo.p]), ?_, ?_, ?_, ?_⟩ <;> kernel_rfl

end Ressa
