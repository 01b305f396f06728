import Verif.Proof.Pure
import Verif.Props.Brackets

/-!
# Placeholders for arrow parameters (C56)

`Expr::ArrowParamPlaceHolder` is the parser's note that a parenthesised list may turn out to be the
parameters of an arrow function.  It is not a part of the language, and a program that the parser
returns should not contain it.  It does after `(a,)` and `(a, ...b)`, where no `=>` is asked for;
`tidy` says that these two do not occur.
-/

namespace Ressa
open Gr Tree

/-- Among the items that are not comments no `,` is directly followed by `)` or `...`; and every
`=>` is spelled so. -/
def TidyText (text : Txt) (toks : List Tok) : Prop :=
  (∀ t ∈ toks, t.item.token = .punct .fatArrow →
    sliceB text t.item.span.start t.item.span.stop = some t!"=>") ∧
  ∀ pre t t' post, toks.filter (fun t => !t.item.token.isComment) = pre ++ t :: t' :: post →
    t.item.token = .punct .comma →
    t'.item.token ≠ .punct .closeParen ∧ t'.item.token ≠ .punct .spread

/-- A placeholder for arrow parameters. -/
def IsPlaceholder (n : Node) : Prop := ∃ ps a, n = .expr (.arrowParamPlaceHolder ps a)

theorem tidy_of_text {L : Lexer} {b : Builder} (h : TidyText b.js (L.scan b.js)) :
    Tidy (cfgOf L b) (visible L b) := by
  obtain ⟨h1, h2⟩ := h
  have h1' : ∀ t ∈ visible L b, Is t .fatArrow → (cfgOf L b).text t = t!"=>" := by
    intro t ht ha
    have := h1 t ((List.mem_filter.1 ht).1) ha
    simp [Cfg.text, Cfg.textOf, cfgOf, this]
  revert h1'
  change ∀ pre t t' post, visible L b = pre ++ t :: t' :: post → _ at h2
  generalize visible L b = l at h2
  intro h1'
  induction l with
  | nil => trivial
  | cons t l ih =>
    refine ⟨fun hc => ?_, h1' t (by simp), ih (fun pre a a' post h => h2 (t :: pre) a a' post (by simp [h]))
      fun t ht => h1' t (by simp [ht])⟩
    cases l with
    | nil => simp [head]
    | cons t' l => exact h2 [] _ _ _ rfl hc

/-- What a parser has before it is as tidy as its text. -/
theorem reachable_tidy {L : Lexer} {b : Builder} {s : St} (hp : TidyText b.js (L.scan b.js))
    (hr : Reachable L b s) : Tidy (cfgOf L b) s.pend := by
  have hc := tidy_of_text hp
  rw [St.pend]
  split
  · trivial
  obtain ⟨pre, h1, h2⟩ := items_read_in_order hr
  have hv : visible L b = pre.filter (fun t => !t.item.token.isComment) ++
      s.rest.filter (fun t => !t.item.token.isComment) := by rw [visible, h1, List.filter_append]
  rw [hv] at hc
  rw [h2, lastItem]
  generalize pre.filter (fun t => !t.item.token.isComment) = p at hc
  cases hl : p.getLast? with
  | none =>
    rw [List.getLast?_eq_none_iff] at hl
    subst hl
    exact ⟨fun h => (by cases h), fun h => (by cases h), hc⟩
  | some t =>
    obtain ⟨p', rfl⟩ := List.getLast?_eq_some_iff.1 hl
    rw [List.append_assoc] at hc
    exact ⟨hc.suffix.1, hc.suffix.2.1, hc.suffix.2.2⟩

theorem pure_of_parts {C Γ b ps i o} (h : Parts C Γ b ps i o) : Tidy C i →
    ((∀ p ∈ ps, Pure (.part p)) ∨ AtArrow o) ∧ (AtArrow i → o = i) := by
  induction h with
  | nil => exact fun _ => ⟨.inl (by simp), fun _ => rfl⟩
  | dir hs hd _ ih =>
    intro hT
    obtain ⟨h1, h2⟩ := ih (tidy_of_G hd hT)
    refine ⟨?_, fun ha => absurd ha (begin_of_G hd hT)⟩
    rcases pure_of_G hd hT with hp | ha
    · exact h1.imp_left fun h => by simpa using ⟨hp, h⟩
    · exact .inr (by rw [h2 ha]; exact ha)
  | item _ _ hd _ ih =>
    intro hT
    obtain ⟨h1, h2⟩ := ih (tidy_of_G hd hT)
    refine ⟨?_, fun ha => absurd ha (begin_of_G hd hT)⟩
    rcases pure_of_G hd hT with hp | ha
    · exact h1.imp_left fun h => by simpa using ⟨hp, h⟩
    · exact .inr (by rw [h2 ha]; exact ha)

/-- C56: no placeholder is left in a program. -/
theorem no_placeholders {L : Lexer} {b : Builder} {s s' : St} {prog : Program}
    (hok : ScannerOk b.js (L.scan b.js)) (hp : TidyText b.js (L.scan b.js))
    (hb : b.build L = .ok () s) (h : parse s = .ok prog s') {ps : List ProgramPart}
    (hprog : prog = .script ps ∨ prog = .mod ps) {n : Node} (hn : Within n ps) :
    ¬ IsPlaceholder n := by
  obtain ⟨ps', o, rfl, hP, ho⟩ := parse_sound hok hb h
  have : ps = ps' := by
    rcases hprog with h | h <;> (split at h <;> cases h) <;> rfl
  subst this
  obtain ⟨p, hm, hs⟩ := hn
  rintro ⟨qs, a, rfl⟩
  rcases (pure_of_parts hP (tidy_of_text hp)).1 with h | h
  · exact not_pure ((h p hm).sub hs)
  · rcases ho with rfl | ⟨e, he, rfl⟩
    · cases h
    · rw [atArrow_cons, he] at h; cases h

theorem look_of_pend {s : St} (h : head s.pend = .punct .fatArrow) :
    s.look.token = .punct .fatArrow := by
  rw [St.pend] at h
  split at h
  · cases h
  · exact h

/-- No part begins with `=>`. -/
theorem next_arrow {L : Lexer} {b : Builder} {s s' : St} {r : Option ProgramPart}
    (hok : ScannerOk b.js (L.scan b.js)) (hp : TidyText b.js (L.scan b.js))
    (hr : Reachable L b s) (ha : head s.pend = .punct .fatArrow) : next s ≠ .ok r s' := by
  intro h
  cases r with
  | some p =>
    have hT := reachable_tidy hp hr
    rcases (next_derivable false nofun hok hr h).2 with h | h
    · exact begin_of_G h hT ha
    · exact begin_of_G h hT ha
  | none =>
    have he := ((none_iff_eof _ _).1 h).1
    rw [St.pend] at ha
    split at ha
    · cases ha
    · have ha : s.look.token = .punct .fatArrow := ha
      rw [he] at ha
      cases ha

/-- A part that `next` returns contains a placeholder only if the next item is `=>`; then the next
call fails.  Also after errors. -/
theorem next_no_placeholders {L : Lexer} {b : Builder} {s s' : St} {p : ProgramPart}
    (hok : ScannerOk b.js (L.scan b.js)) (hp : TidyText b.js (L.scan b.js))
    (hr : Reachable L b s) (h : next s = .ok (some p) s') {n : Node} (hn : Sub n (.part p))
    (hpl : IsPlaceholder n) : s'.look.token = .punct .fatArrow ∧ ∀ r s'', next s' ≠ .ok r s'' := by
  obtain ⟨qs, a, rfl⟩ := hpl
  have : Pure (.part p) ∨ AtArrow s'.pend := by
    rcases (next_derivable false nofun hok hr h).2 with h | h
    · exact pure_of_G h (reachable_tidy hp hr)
    · exact pure_of_G h (reachable_tidy hp hr)
  have ha : head s'.pend = .punct .fatArrow := this.resolve_left fun h => not_pure (h.sub hn)
  obtain ⟨s0, h0, hcs⟩ := hr
  exact ⟨look_of_pend ha, fun _ _ => next_arrow hok hp ⟨s0, h0, hcs.tail (.nextOk h)⟩ ha⟩

/-- The same for `parse_expression`. -/
theorem expression_no_placeholders {L : Lexer} {b : Builder} {s s' : St} {e : Expr}
    (hok : ScannerOk b.js (L.scan b.js)) (hp : TidyText b.js (L.scan b.js))
    (hr : Reachable L b s) (h : full.expression s = .ok e s') {n : Node} (hn : Sub n (.expr e))
    (hpl : IsPlaceholder n) : s'.look.token = .punct .fatArrow := by
  obtain ⟨qs, a, rfl⟩ := hpl
  have : Pure (.expr e) ∨ AtArrow s'.pend :=
    pure_of_G (expression_derivable false nofun hok hr h).2 (reachable_tidy hp hr)
  exact look_of_pend (this.resolve_left fun h => not_pure (h.sub hn))

/-- `(a, b) => f((c) => a)` -/
def arrowText : List Demo.Piece :=
  [Demo.p .openParen t!"(", Demo.id t!"a", Demo.p .comma t!",", Demo.id t!"b",
    Demo.p .closeParen t!")", Demo.p .fatArrow t!"=>", Demo.id t!"f", Demo.p .openParen t!"(",
    Demo.p .openParen t!"(", Demo.id t!"c", Demo.p .closeParen t!")", Demo.p .fatArrow t!"=>",
    Demo.id t!"a", Demo.p .closeParen t!")"]

/-- Checks all pairs of neighbours. -/
def tidyPairs : List Tok → Bool
  | t :: t' :: r => (t.item.token != .punct .comma ||
      (t'.item.token != .punct .closeParen && t'.item.token != .punct .spread)) && tidyPairs (t' :: r)
  | _ => true

theorem tidyPairs_split {l} (h : tidyPairs l = true) (pre t t' post)
    (hl : l = pre ++ t :: t' :: post) (hc : t.item.token = .punct .comma) :
    t'.item.token ≠ .punct .closeParen ∧ t'.item.token ≠ .punct .spread := by
  subst hl
  induction pre with
  | nil => simp [tidyPairs, hc] at h; exact h.1
  | cons a pre ih =>
    refine ih ?_
    cases pre <;> simp [tidyPairs] at h <;> simp [tidyPairs, h]

theorem arrowText_tidy :
    TidyText (Demo.text arrowText) ((Demo.lexer arrowText).scan (Demo.text arrowText)) := by
  refine ⟨?_, fun pre t t' post h => tidyPairs_split (l := _) (by kernel_rfl) pre t t' post h⟩
  have : ((Demo.lexer arrowText).scan (Demo.text arrowText)).all (fun t =>
      t.item.token != .punct .fatArrow ||
        (sliceB (Demo.text arrowText) t.item.span.start t.item.span.stop) == some t!"=>") =
      true := by kernel_rfl
  intro t ht hb
  have h := List.all_eq_true.1 this t ht
  simpa [hb] using h

/-- C56 on that text. -/
example : ScannerOk (Demo.text arrowText) ((Demo.lexer arrowText).scan (Demo.text arrowText)) ∧
    TidyText (Demo.text arrowText) ((Demo.lexer arrowText).scan (Demo.text arrowText)) ∧
    Demo.parse arrowText = .ok (.script [.stmt (.expr (.arrowExpr
      [.expr (.ident t!"a"), .expr (.ident t!"b")]
      (.call (.ident t!"f") [.arrowExpr [.expr (.ident t!"c")] (.ident t!"a") true false false])
      true false false))]) := by
  refine ⟨Demo.scannerOk (by simp [arrowText, Demo.PieceOk, ShapeOk, Demo.id, Demo.p]),
    arrowText_tidy, ?_⟩
  kernel_rfl

/-- Why the text is to be tidy: `(a,) + 1` and `(a, ...b) + 1` are accepted, with placeholders. -/
example :
    Demo.parse [Demo.p .openParen t!"(", Demo.id t!"a", Demo.p .comma t!",",
      Demo.p .closeParen t!")", Demo.p .plus t!"+", Demo.n t!"1"] =
      .ok (.script [.stmt (.expr (.binary .plus
        (.arrowParamPlaceHolder [.expr (.ident t!"a")] false) (.literal (.number t!"1"))))]) ∧
    Demo.parse [Demo.p .openParen t!"(", Demo.id t!"a", Demo.p .comma t!",", Demo.p .spread t!"...",
      Demo.id t!"b", Demo.p .closeParen t!")", Demo.p .plus t!"+", Demo.n t!"1"] =
      .ok (.script [.stmt (.expr (.binary .plus
        (.arrowParamPlaceHolder [.expr (.ident t!"a"), .pat (.restElement (.identifier t!"b"))] false)
        (.literal (.number t!"1"))))]) := by
  constructor <;> kernel_rfl

/-- `-(a)` and `=> b` on the next line: `next` returns a part with a placeholder, and then fails. -/
def brokenArrow : List Demo.Piece :=
  [Demo.p .minus t!"-", Demo.p .openParen t!"(", Demo.id t!"a", Demo.p .closeParen t!")",
    Demo.nl (Demo.p .fatArrow t!"=>"), Demo.id t!"b"]

example :
    (next (Demo.state brokenArrow)).outcome = .ok (some (.stmt (.expr (.unary .minus
      (.arrowParamPlaceHolder [.expr (.ident t!"a")] false) true)))) ∧
    (next (Demo.after next (Demo.state brokenArrow))).outcome.isOk = false := by
  constructor <;> kernel_rfl

end Ressa
