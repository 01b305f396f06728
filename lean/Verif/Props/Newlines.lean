import Verif.Proof.Exec

/-!
# Line breaks (C17, C20, C21)
-/

namespace Ressa

open Gr

/-! ## C17 -/

/-- What may stand at the end of a statement: a semicolon, an item on a new line, a closing brace
or the end. -/
def EndsStatement (C : Cfg) (i : List Tok) : Prop :=
  head i = .punct .semiColon ∨ C.nl i = true ∨ head i = .punct .closeBrace ∨ head i = .eof

theorem expectedLook_run {α : Type} {e : List Expect} {s : St} {all : List Tok}
    (hr : Reading s.stream all s) : ∃ p m, (expectedLook e : P α) s = .err (.unexpectedToken p m) s := by
  unfold expectedLook expectedTokenError
  split
  · next h =>
    rw [hr.lines] at h
    exact absurd h getItemPosition_some
  · exact ⟨_, _, rfl⟩

/-- C17: a semicolon is consumed, and nothing else. -/
theorem semicolon_consumed {C : Cfg} {Γ : Env} {f : Flags} {i : List Tok} {s : St} (hs : Stand C Γ f i s)
    (h : head i = .punct .semiColon) :
    ∃ t o s', i = t :: o ∧ consumeSemicolon s = .ok () s' ∧ Stand C Γ f o s' := by
  cases i with
  | nil => exact nomatch h
  | cons t o =>
    obtain ⟨s', hn, hs', -⟩ := hs.next
    refine ⟨t, o, s', rfl, ?_, hs'⟩
    unfold consumeSemicolon atPunct lookIs skipItem
    simp [hs.at_.head, h, bind_def, hn]

/-- C17: without a semicolon, nothing is consumed where a statement may end. -/
theorem semicolon_inserted {C : Cfg} {Γ : Env} {f : Flags} {i : List Tok} {s : St} (hs : Stand C Γ f i s)
    (h : head i ≠ .punct .semiColon) (he : EndsStatement C i) : consumeSemicolon s = .ok () s := by
  have hp : (head i).matchesPunct .semiColon = false := by
    cases hm : (head i).matchesPunct .semiColon
    · rfl
    · exact absurd (matchesPunct_iff.1 hm) h
  unfold consumeSemicolon atPunct lookIs readC
  have h1 := hs.at_.head
  have h2 := hs.nl
  rcases he with he | he | he | he
  · exact absurd he h
  · simp [h1, hp, h2, he]
  · rw [he] at h1; simp [h1, ite_run]
  · rw [he] at h1; simp [h1, Token.isEof, Token.matchesPunct, ite_run]

/-- C17: anywhere else the end of a statement is an error about the next item, and nothing is
consumed. -/
theorem semicolon_missing {C : Cfg} {Γ : Env} {f : Flags} {i : List Tok} {s : St} (hs : Stand C Γ f i s)
    (he : ¬EndsStatement C i) : ∃ p m, consumeSemicolon s = .err (.unexpectedToken p m) s := by
  simp only [EndsStatement, not_or] at he
  obtain ⟨h1, h2, h3, h4⟩ := he
  have np : ∀ p, head i ≠ .punct p → (head i).matchesPunct p = false := by
    intro p h
    cases hm : (head i).matchesPunct p
    · rfl
    · exact absurd (matchesPunct_iff.1 hm) h
  have g : (head i).isEof = false := by
    cases hh : head i <;> first | rfl | exact absurd hh h4
  obtain ⟨all, -, hr⟩ := hs.ok
  obtain ⟨p, m, hpm⟩ := expectedLook_run (α := Unit)
    (e := [.text t!"`;`", .text t!"`eof`", .text t!"`}`"]) hr
  refine ⟨p, m, ?_⟩
  unfold consumeSemicolon atPunct lookIs readC
  simp [hs.at_.head, np _ h1, np _ h3, hs.nl, h2, g, hpm]

/-- C17: the end of a statement is accepted exactly in these places. -/
theorem semicolon_iff {C : Cfg} {Γ : Env} {f : Flags} {i : List Tok} {s : St} (hs : Stand C Γ f i s) :
    (∃ s', consumeSemicolon s = .ok () s') ↔ EndsStatement C i := by
  constructor
  · rintro ⟨s', h⟩
    refine Classical.byContradiction fun he => ?_
    obtain ⟨p, m, h'⟩ := semicolon_missing hs he
    rw [h] at h'
    cases h'
  · intro he
    by_cases h : head i = .punct .semiColon
    · obtain ⟨_, _, s', -, h', -⟩ := semicolon_consumed hs h
      exact ⟨s', h'⟩
    · exact ⟨s, semicolon_inserted hs h he⟩

/-- In front of `; a`, in front of `a` after a line break, and in front of `a`. -/
example :
    (∃ s', consumeSemicolon (Demo.state [Demo.p .semiColon t!";", Demo.id t!"a"]) = .ok () s' ∧
      Stand (Demo.cfg [Demo.p .semiColon t!";", Demo.id t!"a"]) Env.top (false, false)
        (Demo.items [Demo.id t!"a"] 2) s') ∧
    (∃ s', consumeSemicolon (Demo.state [Demo.nl (Demo.id t!"a")]) = .ok () s') ∧
    ¬∃ s', consumeSemicolon (Demo.state [Demo.id t!"a"]) = .ok () s' := by
  refine ⟨?_, (semicolon_iff (Demo.stand (by decide))).2 (.inr (.inl rfl)),
    fun h => ?_⟩
  · obtain ⟨t, o, s', h1, h2, h3⟩ := semicolon_consumed
      (Demo.stand (ps := [Demo.p .semiColon t!";", Demo.id t!"a"]) (by decide)) rfl
    cases h1
    exact ⟨s', h2, h3⟩
  · have := (semicolon_iff (Demo.stand (by decide))).1 h
    revert this
    simp [EndsStatement, visible, Demo.lexer, Demo.items, Demo.id, head, Cfg.nl,
      Token.isComment]

/-! ## C20 -/

/-- C20: an expression that is followed by a line break gets no postfix operator: whatever follows,
the expression is the result and nothing more is consumed. -/
theorem no_postfix_after_line_break {R : Rec} {s s' : St} {e : Expr}
    (hi : s.look.token ≠ .punct .increment) (hd : s.look.token ≠ .punct .decrement)
    (h : inherited (lhsAllowCall R) s = .ok e s') (hnl : s'.ctx.hasLineTerm = true) :
    updateExpr R s = .ok e s' := by
  have f : ∀ p, s.look.token ≠ .punct p → s.look.token.matchesPunct p = false := by
    intro p h
    cases hm : s.look.token.matchesPunct p
    · rfl
    · exact absurd (matchesPunct_iff.1 hm) h
  unfold updateExpr look atPunct lookIs readC
  simp only [get_or, get_and, get_bind, f _ hi, f _ hd, Bool.or_false, if_neg Bool.false_ne_true]
  rw [bind_def, h]
  simp [hnl]

/-- C20: an update node that is not a prefix one is an expression before it, then `++` or `--` on
the same line; unless it stood in parentheses. -/
theorem postfix_same_line {C : Cfg} {Γ : Env} {i : List Tok} {s s' : St} {op : UpdateOperator}
    {e : Expr} (hs : At C Γ i s) (h : updateExpr full s = .ok (.update op e false) s') :
    (∃ t o, At C Γ o s' ∧ G C (Γ.within true) (.call e) i (t :: o) ∧ t.nl = false ∧
      t.item.token = .punct (match op with | .increment => .increment | .decrement => .decrement)) ∨
    ∃ o, At C Γ o s' ∧ G C (Γ.within true) (.call (.update op e false)) i o := by
  have := full_ok (C := C)
  obtain ⟨o, ho, hG⟩ := Rn.updateExpr s _ s' hs h
  generalize hx : NT.update (.update op e false) = nt at hG
  cases hG with
  | updPostfix h1 h2 h3 =>
    cases hx
    refine .inl ⟨_, o, ho, h1, h2, ?_⟩
    rcases h3 with ⟨h3, rfl⟩ | ⟨h3, rfl⟩ <;> exact h3
  | updNone h1 h2 => cases hx; exact .inr ⟨o, ho, h1⟩
  | _ => exact nomatch hx

/-- `a` and `++ b` on two lines: two statements.  On one line the first is `a++`, and then `b` is
an error. -/
example :
    Demo.parse [Demo.id t!"a", Demo.nl (Demo.p .increment t!"++"), Demo.id t!"b"] =
      .ok (.script [.stmt (.expr (.ident t!"a")),
        .stmt (.expr (.update .increment (.ident t!"b") true))]) ∧
    (Demo.parse [Demo.id t!"a", Demo.p .increment t!"++", Demo.id t!"b"]).isOk = false ∧
    Demo.parse [Demo.id t!"a", Demo.p .increment t!"++"] =
      .ok (.script [.stmt (.expr (.update .increment (.ident t!"a") false))]) := by
  refine ⟨?_, ?_, ?_⟩ <;> kernel_rfl

/-- The hypotheses of the first theorem hold in front of `a.b` and `++ c` on two lines. -/
example :
    ∃ s', inherited (lhsAllowCall full) (Demo.state [Demo.id t!"a", Demo.p .period t!".",
        Demo.id t!"b", Demo.nl (Demo.p .increment t!"++"), Demo.id t!"c"]) =
      .ok (.member (.ident t!"a") (.ident t!"b") false) s' ∧ s'.ctx.hasLineTerm = true ∧
      s'.look.token = .punct .increment :=
  ⟨Demo.after (inherited (lhsAllowCall full)) (Demo.state [Demo.id t!"a", Demo.p .period t!".",
        Demo.id t!"b", Demo.nl (Demo.p .increment t!"++"), Demo.id t!"c"]),
    by kernel_rfl, by kernel_rfl, by kernel_rfl⟩

/-! ## C21 -/

/-- The label after `break` or `continue` in front of the items `i`. -/
def jumpLabel (C : Cfg) : List Tok → Option Txt
  | [] => none
  | t :: _ => if t.item.token = .ident ∧ t.nl = false then some (C.text t) else none

/-- C21: the label of a jump is the next item if that is an identifier on the same line, and there
is none otherwise. -/
theorem jump_label {C : Cfg} {Γ : Env} {i : List Tok} {s s' : St} {k : Keyword} {l : Option Txt}
    (hs : At C Γ i s) (h : optLabel k s = .ok l s') :
    ∃ t j, i = t :: j ∧ t.item.token = .keyword k ∧ l = jumpLabel C j := by
  obtain ⟨o, -, hG⟩ := Rn.optLabel s l s' hs h
  generalize hx : NT.optLabel k l = nt at hG
  cases hG with
  | @labelNone _ _ t j _ h1 h2 =>
    cases hx
    refine ⟨t, j, rfl, h1, ?_⟩
    cases j with
    | nil => rfl
    | cons u j =>
      rw [jumpLabel, if_neg]
      rintro ⟨h3, h4⟩
      rcases h2 with h2 | h2
      · exact h2 h3
      · exact absurd (h2.symm.trans h4) (by simp)
  | label h1 h2 h3 h4 =>
    cases hx
    refine ⟨_, _, rfl, h1, ?_⟩
    rw [jumpLabel, if_pos ⟨h2, h3⟩]
    generalize hy : NT.ident false _ = nt at h4
    cases h4 with
    | identIdent => cases hy; rfl
    | identYield h4 => rw [h4] at h2; cases h2
    | _ => exact nomatch hy
  | _ => exact nomatch hx

/-- `break` and `x` on one line and on two lines. -/
example :
    Demo.parse [Demo.k .break, Demo.id t!"x"] = .ok (.script [.stmt (.break (some t!"x"))]) ∧
    Demo.parse [Demo.k .break, Demo.nl (Demo.id t!"x")] =
      .ok (.script [.stmt (.break none), .stmt (.expr (.ident t!"x"))]) := by
  refine ⟨?_, ?_⟩ <;> kernel_rfl

/-- The theorem in front of `continue x ;`. -/
example : ∀ l s', optLabel .continue (Demo.state [Demo.k .continue, Demo.id t!"x",
    Demo.p .semiColon t!";"]) = .ok l s' → l = some t!"x" := by
  intro l s' h
  obtain ⟨t, j, h1, -, h3⟩ := jump_label (Demo.stand (by decide)).at_ h
  cases h1
  exact h3

end Ressa
