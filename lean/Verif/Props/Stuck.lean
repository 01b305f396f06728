import Verif.Props.Safety
import Verif.Proof.Eval

/-!
# Errors do not end the iteration (C06)
-/

namespace Ressa

/-- `m` fails with `e` and changes nothing but the context. -/
def Stuck {α : Type} (e : Error) (m : P α) (s : St) : Prop := ∃ c, m s = .err e { s with ctx := c }

theorem Stuck.bind {α β : Type} {e : Error} {m : P α} {f : α → P β} {s : St} (h : Stuck e m s) :
    Stuck e (m >>= f) s := by
  obtain ⟨c, h⟩ := h
  exact ⟨c, by rw [bind_def, h]⟩

theorem Stuck.modC {β : Type} {e : Error} {g : Ctx → Ctx} {f : Unit → P β} {s : St}
    (h : Stuck e (f ()) { s with ctx := g s.ctx }) : Stuck e (P.modC g >>= f) s := by
  obtain ⟨c, h⟩ := h
  exact ⟨c, by rw [modC_bind, h]⟩

theorem Stuck.inScope {α : Type} {e : Error} {set restore} {m : P α} {s : St}
    (h : Stuck e m { s with ctx := set s.ctx }) : Stuck e (Ressa.inScope set restore m) s := by
  unfold Ressa.inScope
  obtain ⟨c, h⟩ := h.bind (f := fun r => P.modC (restore s.ctx) >>= fun _ => pure r)
  exact ⟨c, by rw [readC_bind, modC_bind]; exact h⟩

theorem Stuck.of_eq {α : Type} {e : Error} {m m' : P α} {s : St} (h : m s = m' s)
    (k : Stuck e m' s) : Stuck e m s := by
  obtain ⟨c, k⟩ := k
  exact ⟨c, by rw [h, k]⟩

/-- The look-ahead is a closing parenthesis at the given position. -/
structure AtParen (p : Position) (w : Txt) (s : St) : Prop where
  tok : s.look.token = .punct .closeParen
  pos : getItemPosition s.lines s.look.span.start = some p
  text : sliceB s.stream s.look.span.start s.look.span.stop = some w

/-- The error for a closing parenthesis where an expression is expected. -/
def parenError (p : Position) : Error :=
  .unexpectedToken p (.expected (words [t!"{", t!"[", t!"("]) (.punct .closeParen))

section
variable {p : Position} {w : Txt} (R : Rec)

theorem AtParen.ctx {s : St} (h : AtParen p w s) (c : Ctx) : AtParen p w { s with ctx := c } :=
  ⟨h.tok, h.pos, h.text⟩

theorem AtParen.primary {s : St} (h : AtParen p w s) : Stuck (parenError p) (primary R) s := by
  refine .of_eq (m' := primaryPunct R) ?_ ?_
  · simp [Ressa.primary, h.tok, Token.isIdent, Token.isNumber, Token.isString, Token.isBool,
      Token.isTemplate, Token.isPunct]
  · unfold primaryPunct inherited
    refine .inScope ?_
    refine .of_eq (m' := expectedLook (words [t!"{", t!"[", t!"("])) ?_ ⟨freshCover s.ctx, ?_⟩
    · simp [h.tok, Token.matchesPunct]
    · simp only [expectedLook, expectedTokenError, h.pos, h.tok]
      rfl

theorem AtParen.lhsAllowCall {s : St} (h : AtParen p w s) :
    Stuck (parenError p) (lhsAllowCall R) s := by
  unfold Ressa.lhsAllowCall
  refine .of_eq (get_bind _ _ _) ?_
  unfold atContextual
  have : ∀ k : Bool → P Expr, ((do return (← streamSlice (← look)) == t!"async") >>= k) s =
      k (w == t!"async") s := by
    intro k
    simp [bind_def, look, P.get, streamSlice, h.text]
  refine .of_eq (this _) ?_
  unfold withAllowIn
  refine .inScope (.bind ?_)
  refine .of_eq (m' := newOrPrimary R) ?_ ?_
  · simp [atKeyword, lookIs, readC, get_and, h.tok]
  · unfold newOrPrimary inherited
    refine .inScope ?_
    refine .of_eq (m' := Ressa.primary R) ?_ (AtParen.primary R ((h.ctx _).ctx _))
    simp [h.tok]

theorem AtParen.unary {s : St} (h : AtParen p w s) : Stuck (parenError p) (unaryExpr R) s := by
  refine .of_eq (m' := updateExpr R) ?_ ?_
  · have : ∀ k : Bool → P Expr, (P.and (readC (·.await)) (atKeyword .await) >>= k) s =
        k false s := by
      intro k
      simp [atKeyword, lookIs, readC, get_and, h.tok]
    simp [unaryExpr, h.tok, Token.matchesPunct, Token.matchesKeyword, this]
  · unfold updateExpr
    refine .of_eq (look_bind _ _) ?_
    have : ∀ k : Bool → P Expr, (P.or (atPunct .increment) (atPunct .decrement) >>= k) s =
        k false s := by
      intro k
      simp [atPunct, lookIs, get_or, h.tok]
      rfl
    refine .of_eq (this _) ?_
    simp only [Bool.false_eq_true, if_false]
    exact .bind (.inScope (AtParen.lhsAllowCall R (h.ctx _)))

theorem AtParen.assign {s : St} (h : AtParen p w s) : Stuck (parenError p) (assignExpr R) s := by
  unfold assignExpr
  have : ∀ k : Bool → P Expr, (P.and (readC (fun c => !c.allowYield)) (atKeyword .yield) >>= k) s =
      k false s := by
    intro k
    simp [atKeyword, lookIs, readC, get_and, h.tok]
  refine .of_eq (this _) ?_
  simp only [Bool.false_eq_true, if_false]
  refine .of_eq (look_bind _ _) (.of_eq (get_bind _ _ _) (.bind ?_))
  refine .bind (.inScope (.bind (.inScope (.bind (.inScope ?_)))))
  exact AtParen.unary R (((h.ctx _).ctx _).ctx _)

theorem AtParen.expression {s : St} (h : AtParen p w s) : Stuck (parenError p) (expression R) s :=
  .bind (.inScope (AtParen.assign R (h.ctx _)))

theorem AtParen.listItem {s : St} (h : AtParen p w s) :
    Stuck (parenError p) (statementListItem R) s := by
  refine .modC ?_
  refine .of_eq (lookTok_bind _ _) ?_
  simp only [h.tok]
  refine .bind ?_
  refine .of_eq (lookTok_bind _ _) ?_
  simp only [h.tok]
  exact .bind (.bind (AtParen.expression R (h.ctx _)))

end

theorem AtParen.next {p : Position} {w : Txt} {s : St} (h : AtParen p w s) :
    Stuck (parenError p) next s := by
  unfold Ressa.next
  refine .of_eq (lookIs_bind _ _ _) ?_
  simp only [h.tok, Token.isEof, Bool.false_eq_true, if_false]
  refine .bind ?_
  unfold nextPart
  have : ∀ k : Bool → P ProgramPart,
      (P.and (readC (fun c => !c.pastProlog)) (lookIs (·.isString)) >>= k) s = k false s := by
    intro k
    simp [lookIs, readC, get_and, h.tok, Token.isString]
  refine .of_eq (this _) ?_
  simp only [Bool.false_eq_true, if_false]
  refine .modC ?_
  have e : full.listItem = statementListItem full := congrArg Rec.listItem full_eq
  rw [e]
  exact AtParen.listItem _ (h.ctx _)

/-- C06: while the next token is a stray `)`, every further call of `next` yields the same error. -/
theorem stray_paren_forever {p : Position} {w : Txt} (n : Nat) : ∀ {s : St}, AtParen p w s →
    nextResults n s = List.replicate n (.err (parenError p)) := by
  induction n with
  | zero => intro s _; rfl
  | succ n ih =>
    intro s h
    obtain ⟨c, hc⟩ := h.next
    simp only [nextResults, hc, Res.outcome, List.replicate_succ, ih (h.ctx c)]

/-- C06: and that call consumes nothing: all that changes is the parsing context. -/
theorem stray_paren_consumes_nothing {p : Position} {w : Txt} {s s' : St} {e : Error}
    (h : AtParen p w s) (hn : next s = .err e s') :
    s'.rest = s.rest ∧ s'.look = s.look ∧ s'.comments = s.comments := by
  obtain ⟨c, hc⟩ := h.next
  rw [hn] at hc
  cases hc
  exact ⟨rfl, rfl, rfl⟩

/-- C06: on the output of a scanner, in every reachable state in which the next token is `)`, the
iterator yields errors for ever. -/
theorem errors_forever {L : Lexer} {b : Builder} {s : St} (hok : ScannerOk b.js (L.scan b.js))
    (h : Reachable L b s) (ht : s.look.token = .punct .closeParen) :
    ∃ e, ∀ n, nextResults n s = List.replicate n (.err e) := by
  have hr := reachable_reading hok h
  obtain ⟨pre, t, h2, h3⟩ := hr.look
  obtain ⟨w, hw, _⟩ := hok.items t (by simp [h2])
  cases hp : getItemPosition s.lines s.look.span.start with
  | none => rw [hr.lines] at hp; exact absurd hp getItemPosition_some
  | some p =>
    exact ⟨parenError p, fun n => stray_paren_forever n (w := w) ⟨ht, hp, by rw [hr.stream, h3, hw]⟩⟩

/-- C06 on `a)b`: after the part `a` fails, the parser sits on `)` for ever. -/
example :
    let s := Demo.after next (Demo.state [Demo.id t!"a", Demo.p .semiColon t!";",
      Demo.p .closeParen t!")", Demo.id t!"b"])
    s.look.token = .punct .closeParen ∧ (nextResults 3 s).map Outcome.error? =
      List.replicate 3 (some (parenError ⟨1, 5⟩)) := by
  constructor <;> kernel_rfl

end Ressa
