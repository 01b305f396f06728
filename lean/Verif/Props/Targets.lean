import Verif.Proof.Occurs
import Verif.Proof.DemoOk

/-!
# Assignment targets (C40) and strict code (C41)

`Occurs L b m`: the node `m` occurs in something that the parser returns to some call, also after
errors.

`Fixed e`: the expression `e` is not a target in any standard of the language, and not for this
parser either.  The converse fails, see `Gr.cover` and the examples.
-/

namespace Ressa
open Ressa.Tree Ressa.Gr

variable {L : Lexer} {b : Builder}

/-- Expressions that cannot be assigned to. -/
inductive Fixed : Expr → Prop
  | literal (l) : Fixed (.literal l)
  | this : Fixed .this
  | call (f as) : Fixed (.call f as)
  | new (f as) : Fixed (.new f as)
  | binary (o l r) : Fixed (.binary o l r)
  | logical (o l r) : Fixed (.logical o l r)
  | conditional (t a c) : Fixed (.conditional t a c)
  | unary (o e p) : Fixed (.unary o e p)
  | update (o e p) : Fixed (.update o e p)
  | class (c) : Fixed (.class c)
  | arrow (ps e x g a) : Fixed (.arrowExpr ps e x g a)
  /-- A compound assignment. -/
  | compound {o} (l r) : o ≠ .equal → Fixed (.assignment o l r)
  /-- An array one of whose elements cannot be assigned to. -/
  | array {l e} : some e ∈ l → Fixed e → Fixed (.array l)
  /-- An object one of whose values cannot be assigned to. -/
  | value {l k e m c} : .property (.mk k (.expr e) .init m c false) ∈ l → Fixed e →
      Fixed (.object l)
  /-- An object with a method. -/
  | method {l k v c} : .property (.mk k v .init true c false) ∈ l → Fixed (.object l)
  /-- An object with a getter or a setter. -/
  | accessor {l k v kind m c} : .property (.mk k v kind m c false) ∈ l → kind ≠ .init →
      Fixed (.object l)
  /-- An object with a spread that cannot be assigned to. -/
  | objectSpread {l e} : .spread e ∈ l → Fixed e → Fixed (.object l)
  | spread {e} : Fixed e → Fixed (.spread e)
  /-- `l = r` whose left side cannot be assigned to. -/
  | default {l r} : Fixed l → Fixed (.assignment .equal l r)

theorem coverElems_mem {m l e} (h : some e ∈ l) (h' : coverElems m l = true) :
    cover m e = true := by
  induction l with
  | nil => simp at h
  | cons a l ih =>
    cases a <;> simp only [coverElems, Bool.and_eq_true, List.mem_cons, reduceCtorEq, false_or,
      Option.some.injEq] at h h'
    · exact ih h h'
    · rcases h with rfl | h
      · exact h'.1
      · exact ih h h'.2

theorem coverProps_mem {m l p} (h : p ∈ l) (h' : coverProps m l = true) : coverProp m p = true := by
  induction l with
  | nil => simp at h
  | cons a l ih =>
    simp only [coverProps, Bool.and_eq_true] at h'
    rcases List.mem_cons.1 h with rfl | h
    · exact h'.1
    · exact ih h h'.2

/-- What cannot be assigned to is not a target. -/
theorem Fixed.cover {e} (h : Fixed e) (m) : Gr.cover m e = false := by
  induction h <;> try (simp [Gr.cover]; done)
  case compound o l r h => cases o <;> simp_all [Gr.cover]
  case array l e h _ ih =>
    rw [Bool.eq_false_iff]; intro hc
    rw [Gr.cover] at hc
    exact absurd (coverElems_mem h hc) (by simp [ih])
  case value l k e mm c h _ ih =>
    rw [Bool.eq_false_iff]; intro hc
    rw [Gr.cover] at hc
    have := coverProps_mem h hc
    cases mm <;> simp [coverProp, coverValue, ih] at this
  case method h =>
    rw [Bool.eq_false_iff]; intro hc
    rw [Gr.cover] at hc
    simpa [coverProp] using coverProps_mem h hc
  case accessor l k v kind mm c h hk =>
    rw [Bool.eq_false_iff]; intro hc
    rw [Gr.cover] at hc
    have := coverProps_mem h hc
    cases kind <;> simp_all [coverProp]
  case objectSpread h _ ih =>
    rw [Bool.eq_false_iff]; intro hc
    rw [Gr.cover] at hc
    simpa [coverProp, ih] using coverProps_mem h hc
  case spread ih => simpa [Gr.cover] using ih
  case default ih => simpa [Gr.cover] using ih

/-! ## C40 -/

/-- Without tolerance the left side of every assignment and the operand of every increment and
decrement may be assigned to, wherever in the parts it occurs. -/
theorem targets (hok : ScannerOk b.js (L.scan b.js))
    (ht : b.tolerant = false) {e : Expr}
    (hw : (∃ op r, Occurs L b (.expr (.assignment op e r))) ∨
      ∃ op pre, Occurs L b (.expr (.update op e pre))) : mayAssign e = true := by
  rcases hw with ⟨op, r, hw⟩ | ⟨op, r, hw⟩ <;> obtain ⟨σ, hl⟩ := occurs_local hok hw <;>
    exact (hl ht).1

/-- Without tolerance nothing is assigned to literals, `this`, calls, operator expressions,
classes, arrow functions with an expression body, objects with methods, or patterns that contain
one of these. -/
theorem fixed_not_assigned (hok : ScannerOk b.js (L.scan b.js))
    (ht : b.tolerant = false) {e : Expr} (hf : Fixed e) :
    (∀ op r, ¬ Occurs L b (.expr (.assignment op e r))) ∧
    ∀ op pre, ¬ Occurs L b (.expr (.update op e pre)) := by
  have key : mayAssign e = false := hf.cover true
  constructor <;> intro _ _ hw
  · exact absurd (targets hok ht (.inl ⟨_, _, hw⟩)) (by simp [key])
  · exact absurd (targets hok ht (.inr ⟨_, _, hw⟩)) (by simp [key])

/-- C40 on `[a, b.c] = x` and `a.b++`. -/
example :
    Demo.parse [Demo.p .openBracket t!"[", Demo.id t!"a", Demo.p .comma t!",", Demo.id t!"b",
      Demo.p .period t!".", Demo.id t!"c", Demo.p .closeBracket t!"]", Demo.p .assign t!"=",
      Demo.id t!"x"] =
    .ok (.script [.stmt (.expr (.assignment .equal (.array [some (.ident t!"a"),
      some (.member (.ident t!"b") (.ident t!"c") false)]) (.ident t!"x")))]) ∧
    Demo.parse [Demo.id t!"a", Demo.p .period t!".", Demo.id t!"b", Demo.p .increment t!"++"] =
    .ok (.script [.stmt (.expr (.update .increment
      (.member (.ident t!"a") (.ident t!"b") false) false))]) := by
  constructor <;> kernel_rfl

/-- `1 = a`, `f()++`, `[1] = a` and `(a ? b : c) = d` are errors; with tolerance `1 = a` is not. -/
example :
    let asg := [Demo.p .assign t!"=", Demo.id t!"a"]
    (Demo.parse (Demo.n t!"1" :: asg)).isOk = false ∧
    (Demo.parse [Demo.id t!"f", Demo.p .openParen t!"(", Demo.p .closeParen t!")",
      Demo.p .increment t!"++"]).isOk = false ∧
    (Demo.parse ([Demo.p .openBracket t!"[", Demo.n t!"1", Demo.p .closeBracket t!"]"] ++
      asg)).isOk = false ∧
    (Demo.parse ([Demo.p .openParen t!"(", Demo.id t!"a", Demo.p .questionMark t!"?", Demo.id t!"b",
      Demo.p .colon t!":", Demo.id t!"c", Demo.p .closeParen t!")"] ++ asg)).isOk = false ∧
    Demo.parse (Demo.n t!"1" :: asg) (tolerant := true) =
      .ok (.script [.stmt (.expr (.assignment .equal (.literal (.number t!"1"))
        (.ident t!"a")))]) := by
  refine ⟨?_, ?_, ?_, ?_, ?_⟩ <;> kernel_rfl

/-- Targets that the standard excludes: `(a = b) = c`, `(a, b) = c`. -/
example :
    let par (x : List Demo.Piece) := Demo.p .openParen t!"(" :: (x ++ [Demo.p .closeParen t!")",
      Demo.p .assign t!"=", Demo.id t!"c"])
    Demo.parse (par [Demo.id t!"a", Demo.p .assign t!"=", Demo.id t!"b"]) =
      .ok (.script [.stmt (.expr (.assignment .equal
        (.assignment .equal (.ident t!"a") (.ident t!"b")) (.ident t!"c")))]) ∧
    Demo.parse (par [Demo.id t!"a", Demo.p .comma t!",", Demo.id t!"b"]) =
      .ok (.script [.stmt (.expr (.assignment .equal
        (.sequence [.ident t!"a", .ident t!"b"]) (.ident t!"c")))]) := by
  constructor <;> kernel_rfl

/-- A function may be assigned to if the last thing in its body was a target: `(function() {}) = c`
is an error, `(function() { for (x of y); }) = c` is accepted. -/
example :
    let fn (x : List Demo.Piece) := [Demo.p .openParen t!"(", Demo.k .function,
      Demo.p .openParen t!"(", Demo.p .closeParen t!")", Demo.p .openBrace t!"{"] ++ x ++
      [Demo.p .closeBrace t!"}", Demo.p .closeParen t!")", Demo.p .assign t!"=", Demo.id t!"c"]
    (Demo.parse (fn [])).isOk = false ∧
    (Demo.parse (fn [Demo.k .for, Demo.p .openParen t!"(", Demo.id t!"x", Demo.id t!"of",
      Demo.id t!"y", Demo.p .closeParen t!")", Demo.p .semiColon t!";"])).isOk = true := by
  constructor <;> kernel_rfl

/-! ## C41 -/

/-- Without tolerance, code inside a class is strict code: it has no `with` statement, does not
delete names, does not increment or decrement `eval` and `arguments`, does not assign to these
and to the words that are reserved in strict code, and declares neither `eval` nor `arguments` with
`let`, `const` or at the head of a loop. -/
theorem class_strict (hok : ScannerOk b.js (L.scan b.js))
    (ht : b.tolerant = false) {c : Class} (hw : Occurs L b (.cls c)) :
    (∀ e s, ¬ Sub (.stmt (.with e s)) (.cls c)) ∧
    (∀ n pre, ¬ Sub (.expr (.unary .delete (.ident n) pre)) (.cls c)) ∧
    (∀ n, n = t!"eval" ∨ n = t!"arguments" → ∀ op pre,
      ¬ Sub (.expr (.update op (.ident n) pre)) (.cls c)) ∧
    (∀ n, n ∈ [t!"eval", t!"arguments", t!"implements", t!"interface", t!"package", t!"private",
      t!"protected", t!"public", t!"static", t!"yield", t!"let"] → ∀ op r,
      ¬ Sub (.expr (.assignment op (.ident n) r)) (.cls c)) ∧
    (∀ n, n = t!"eval" ∨ n = t!"arguments" → ∀ k i, (∀ ds, VariableDecl.mk (.identifier n) i ∈ ds →
      ¬ Sub (.decl (.variable k ds)) (.cls c) ∧ ¬ Sub (.loopInit (.variable k ds)) (.cls c)) ∧
      ¬ Sub (.loopLeft (.variable k (VariableDecl.mk (.identifier n) i))) (.cls c)) := by
  refine ⟨?_, ?_, ?_, ?_, ?_⟩
  · intro e s hs
    obtain ⟨σ, hσ, hl⟩ := class_local hok hw hs (by simp)
    simpa [hσ] using hl ht
  · intro n pre hs
    obtain ⟨σ, hσ, hl⟩ := class_local hok hw hs (by simp)
    simpa [isIdentExpr] using hl ht hσ rfl
  · intro n hn op pre hs
    obtain ⟨σ, hσ, hl⟩ := class_local hok hw hs (by simp)
    have := (hl ht).2 hσ
    rcases hn with rfl | rfl <;> exact absurd this (by decide)
  · intro n hn op pre hs
    obtain ⟨σ, hσ, hl⟩ := class_local hok hw hs (by simp)
    have := (hl ht).2 hσ
    simp only [List.mem_cons, List.not_mem_nil, or_false] at hn
    rcases hn with rfl | rfl | rfl | rfl | rfl | rfl | rfl | rfl | rfl | rfl | rfl <;>
      exact absurd this (by decide)
  · intro n hn k i
    have hr : Tree.bindsRestricted (VariableDecl.mk (.identifier n) i) = true := by
      rcases hn with rfl | rfl <;> rfl
    refine ⟨fun ds hd => ⟨fun hs => ?_, fun hs => ?_⟩, fun hs => ?_⟩ <;>
      obtain ⟨σ, hσ, hl⟩ := class_local hok hw hs (by simp)
    · simpa [hr] using hl ht hσ _ hd
    · simpa [hr] using hl ht hσ _ hd
    · simpa [hr] using hl ht hσ

/-- C41 on `class A { m() { ... } }` and `function m() { ... }`: with `a = b`, `eval = b`,
`++arguments`, `delete a`, `with (a) ;`, `let eval`, `for (var eval in a) ;` and `var eval` in place
of the dots.  A `var` statement is not checked.  A directive does not make code strict. -/
example :
    let body (x : List Demo.Piece) := [Demo.id t!"m", Demo.p .openParen t!"(",
      Demo.p .closeParen t!")", Demo.p .openBrace t!"{"] ++ x ++ [Demo.p .closeBrace t!"}"]
    let cls (x : List Demo.Piece) := (Demo.parse ([Demo.k .class, Demo.id t!"A",
      Demo.p .openBrace t!"{"] ++ body x ++ [Demo.p .closeBrace t!"}"])).isOk
    let fn (x : List Demo.Piece) := (Demo.parse (Demo.k .function :: body x)).isOk
    let e1 := [Demo.id t!"a", Demo.p .assign t!"=", Demo.id t!"b"]
    let e2 := [Demo.id t!"eval", Demo.p .assign t!"=", Demo.id t!"b"]
    let e3 := [Demo.p .increment t!"++", Demo.id t!"arguments"]
    let e4 := [Demo.k .delete, Demo.id t!"a"]
    let e5 := [Demo.k .with, Demo.p .openParen t!"(", Demo.id t!"a", Demo.p .closeParen t!")",
      Demo.p .semiColon t!";"]
    let e6 := [Demo.k .let, Demo.id t!"eval"]
    let e7 := [Demo.k .for, Demo.p .openParen t!"(", Demo.k .var, Demo.id t!"eval", Demo.k .in,
      Demo.id t!"a", Demo.p .closeParen t!")", Demo.p .semiColon t!";"]
    let e8 := [Demo.k .var, Demo.id t!"eval"]
    let dir := [Demo.str t!"'use strict'", Demo.p .semiColon t!";"]
    [e1, e2, e3, e4, e5, e6, e7, e8].map cls =
      [true, false, false, false, false, false, false, true] ∧
    [e1, e2, e3, e4, e5, dir ++ e5, e6, e7, e8].map fn =
      [true, true, true, true, true, true, true, true, true] := by
  constructor <;> kernel_rfl

end Ressa
