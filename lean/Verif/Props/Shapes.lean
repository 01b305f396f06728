import Verif.Proof.Occurs
import Verif.Proof.DemoOk

/-!
# Shapes that never occur in the trees (C48-C52)

`Occurs L b m`: the node `m` occurs in something that the parser returns to some call of `next`,
`parse` or `parse_expression`, also to calls after errors.
-/

namespace Ressa
open Ressa.Tree Ressa.Gr

namespace Tree

theorem fit_parts {C Γ b ps i o} (h : Parts C Γ b ps i o) :
    ∀ p ∈ ps, Fit C.tolerant Γ.await (.part p) := by
  induction h with
  | nil => simp
  | dir _ hd _ ih =>
    have := fit_of_G hd
    simpa using ⟨this, ih⟩
  | item _ _ hd _ ih =>
    have := fit_of_G hd
    simpa using ⟨this, ih⟩

theorem yields_fit {L : Lexer} {b : Builder} {ps : List ProgramPart}
    (hok : ScannerOk b.js (L.scan b.js)) (h : Yields L b ps) :
    ∀ p ∈ ps, Fit b.tolerant false (.part p) := by
  obtain ⟨o, hP⟩ := yields_sound hok h
  exact fit_parts hP

end Tree

variable {L : Lexer} {b : Builder} {ps : List ProgramPart}

/-! ## C48 -/

/-- The last statement inside the statement is an `if` without `else`: an `else` written after it
would belong to that `if`. -/
inductive EndsOpen : Stmt → Prop
  | here (t a) : EndsOpen (.if t a none)
  | alternative {t a s} : EndsOpen s → EndsOpen (.if t a (some s))
  | while {t s} : EndsOpen s → EndsOpen (.while t s)
  | with {e s} : EndsOpen s → EndsOpen (.with e s)
  | for {i t u s} : EndsOpen s → EndsOpen (.for i t u s)
  | forIn {l r s} : EndsOpen s → EndsOpen (.forIn l r s)
  | forOf {l r s a} : EndsOpen s → EndsOpen (.forOf l r s a)
  | labeled {l s} : EndsOpen s → EndsOpen (.labeled l s)

theorem EndsOpen.opensIf {s} (h : EndsOpen s) : Tree.opensIf s = true := by
  induction h <;> simp_all [Tree.opensIf]

/-- Every `else` belongs to the nearest `if`. -/
theorem else_nearest (hok : ScannerOk b.js (L.scan b.js))
    (ht : b.tolerant = false) {t a s} (hw : Occurs L b (.stmt (.if t a (some s)))) :
    ¬ EndsOpen a := fun ho => by
  obtain ⟨aw, hl, -⟩ := occurs_shape hok hw
  exact absurd ho.opensIf (by simp [show Tree.opensIf a = false from hl ht])

/-- `(x)` -/
def parenText (x : Txt) : List Demo.Piece :=
  [Demo.p .openParen t!"(", Demo.id x, Demo.p .closeParen t!")"]

/-- C48 on `if (a) while (b) if (c) ; else ;`. -/
example :
    Demo.parse (Demo.k .if :: parenText t!"a" ++ Demo.k .while :: parenText t!"b" ++
      Demo.k .if :: parenText t!"c" ++ [Demo.p .semiColon t!";", Demo.k .else,
      Demo.p .semiColon t!";"]) =
    .ok (.script [.stmt (.if (.ident t!"a") (.while (.ident t!"b")
      (.if (.ident t!"c") .empty (some .empty))) none)]) := by
  kernel_rfl

/-! ## C49 -/

/-- `m` occurs in `n` outside every async function (other than async arrow functions, which do not
make `await` an operator). -/
inductive Plain (m : Node) : Node → Prop
  | refl : Plain m m
  | step {n c : Node} {e : Edge} : (e, c) ∈ n.kids → (∀ id as l g, n ≠ .fn (.mk id as l g true)) →
      Plain m c → Plain m n

theorem plain_fit {tol n m} (h : Plain m n) : Fit tol false n → Fit tol false m := by
  induction h with
  | refl => exact id
  | @step n c e hk hn _ ih =>
    intro h
    refine ih ?_
    have := (fit_iff.1 h).2 _ hk
    have ha : awaits false n = false := by
      cases n with
      | fn f =>
        obtain ⟨id, as, l, g, a⟩ := f
        cases a
        · simp [awaits]
        · exact absurd rfl (hn _ _ _ _)
      | _ => rfl
    rwa [ha] at this

/-- Every `await` expression is inside an async function. -/
theorem await_in_async (hok : ScannerOk b.js (L.scan b.js)) (h : Yields L b ps) (e : Expr) :
    ∀ p ∈ ps, ¬ Plain (.expr (.await e)) (.part p) := fun p hp hpl => by
  have := (fit_iff.1 (plain_fit hpl (yields_fit hok h p hp))).1.1
  simp [ShapeAt] at this

/-- A named function that is not async contains no `await` expression outside inner async
functions, even if it is itself inside an async function. -/
theorem await_not_in_plain (hok : ScannerOk b.js (L.scan b.js)) {n as l g}
    (hw : Occurs L b (.fn (.mk (some n) as l g false))) (e : Expr) :
    ¬ Plain (.expr (.await e)) (.fn (.mk (some n) as l g false)) := fun hpl => by
  obtain ⟨aw, hf⟩ := occurs_fit hok hw
  have hf : Fit b.tolerant false (.fn (.mk (some n) as l g false)) := by
    refine .mk ⟨trivial, (fit_iff.1 hf).1.2⟩ fun x hx => ?_
    have := (fit_iff.1 hf).2 x hx
    simpa [awaits] using this
  have := (fit_iff.1 (plain_fit hpl hf)).1.1
  simp [ShapeAt] at this

/-- The text of `async function f() { await a }`, without `async`, and in a function inside. -/
def awaitText (isAsync : Bool) (inner : Bool) : List Demo.Piece :=
  let fn (x : List Demo.Piece) := [Demo.k .function, Demo.id t!"f", Demo.p .openParen t!"(",
    Demo.p .closeParen t!")", Demo.p .openBrace t!"{"] ++ x ++ [Demo.p .closeBrace t!"}"]
  let aw := [Demo.k .await, Demo.id t!"a"]
  (if isAsync then [Demo.id t!"async"] else []) ++ fn (if inner then fn aw else aw)

/-- C49 on `async function f() { await a }`; in a plain function, also inside an async one, it is
an error. -/
example :
    Demo.parse (awaitText true false) =
    .ok (.script [.stmt (.expr (.function (.mk (some t!"f") []
      [.stmt (.expr (.await (.ident t!"a")))] false true)))]) ∧
    (Demo.parse (awaitText false false)).isOk = false ∧
    (Demo.parse (awaitText true true)).isOk = false := by
  refine ⟨?_, ?_, ?_⟩ <;> kernel_rfl

/-! ## C50 -/

/-- Sequences have at least two elements, a member that is not computed is a name, unary operators
are in front, arrow functions are not generators and record the form of their body. -/
theorem expression_shapes (hok : ScannerOk b.js (L.scan b.js)) :
    (∀ es, Occurs L b (.expr (.sequence es)) → 2 ≤ es.length) ∧
    (∀ o p, Occurs L b (.expr (.member o p false)) → ∃ n, p = .ident n) ∧
    (∀ op e, ¬ Occurs L b (.expr (.unary op e false))) ∧
    (∀ as l x g a, Occurs L b (.expr (.arrowBlock as l x g a)) → x = false ∧ g = false) ∧
    (∀ as e x g a, Occurs L b (.expr (.arrowExpr as e x g a)) → x = true ∧ g = false) := by
  refine ⟨fun es hw => ?_, fun o p hw => ?_, fun op e hw => ?_, fun as l x g a hw => ?_,
    fun as e x g a hw => ?_⟩ <;> obtain ⟨aw, hl, -⟩ := occurs_shape hok hw
  · exact hl
  · exact hl rfl
  · simp [ShapeAt] at hl
  · exact ⟨hl.1, hl.2.1⟩
  · exact ⟨hl.1, hl.2.1⟩

/-- No parameter of an arrow function has a `yield` expression as its default. -/
theorem arrow_yield_default (hok : ScannerOk b.js (L.scan b.js)) {e : Expr} {as : List FunctionArg}
    (he : (∃ l x g a, e = .arrowBlock as l x g a) ∨ ∃ c x g a, e = .arrowExpr as c x g a)
    (hw : Occurs L b (.expr e)) :
    (∀ l y d, .pat (.assignment l (.yield y d)) ∉ as) ∧
    ∀ op l y d, .expr (.assignment op l (.yield y d)) ∉ as := by
  obtain ⟨aw, hl, -⟩ := occurs_shape hok hw
  have h : ∀ p ∈ as, yieldDefault p = false := by
    rcases he with ⟨_, _, _, _, rfl⟩ | ⟨_, _, _, _, rfl⟩ <;> exact hl.2.2
  exact ⟨fun l y d hm => Bool.noConfusion (h _ hm), fun op l y d hm => Bool.noConfusion (h _ hm)⟩

/-- `function* f() { (a = x) => b }` -/
def arrowDefault (x : List Demo.Piece) : List Demo.Piece :=
  [Demo.k .function, Demo.p .asterisk t!"*", Demo.id t!"f", Demo.p .openParen t!"(",
    Demo.p .closeParen t!")", Demo.p .openBrace t!"{", Demo.p .openParen t!"(", Demo.id t!"a",
    Demo.p .assign t!"="] ++ x ++ [Demo.p .closeParen t!")", Demo.p .fatArrow t!"=>",
    Demo.id t!"b", Demo.p .closeBrace t!"}"]

/-- The parameter `a = c` is accepted, `a = yield c` is not. -/
example : (Demo.parse (arrowDefault [Demo.id t!"c"])).isOk = true ∧
    (Demo.parse (arrowDefault [Demo.k .yield, Demo.id t!"c"])).isOk = false := by
  refine ⟨?_, ?_⟩ <;> kernel_rfl

/-- C50 on `(a), (b.c, -d)`: parentheses leave no trace. -/
example :
    Demo.parse [Demo.p .openParen t!"(", Demo.id t!"a", Demo.p .closeParen t!")",
      Demo.p .comma t!",", Demo.p .openParen t!"(", Demo.id t!"b", Demo.p .period t!".",
      Demo.id t!"c", Demo.p .comma t!",", Demo.p .minus t!"-", Demo.id t!"d",
      Demo.p .closeParen t!")"] =
    .ok (.script [.stmt (.expr (.sequence [.ident t!"a", .sequence [
      .member (.ident t!"b") (.ident t!"c") false, .unary .minus (.ident t!"d") true]]))]) := by
  kernel_rfl

/-! ## C51 -/

/-- Spread elements occur only as elements of arrays and array patterns, as arguments of calls and
`new`, as properties of objects, and among the parameters of arrow functions. -/
theorem spread_places (hok : ScannerOk b.js (L.scan b.js)) {n : Node}
    (hw : Occurs L b n) {edge e} (hk : (edge, .expr (.spread e)) ∈ n.kids) :
    (∃ es, n = .expr (.array es)) ∨ (∃ f as, n = .expr (.call f as)) ∨
    (∃ f as, n = .expr (.new f as)) ∨ n = .objProp (.spread (.spread e)) ∨
    n = .arg (.expr (.spread e)) ∨ n = .arrPart (.expr (.spread e)) := by
  obtain ⟨aw, -, hl⟩ := occurs_shape hok hw
  have := hl _ hk rfl
  unfold holdsSpread at this
  split at this <;> try (simp_all; done)
  · rename_i p; cases p <;> simp_all [Node.kids]
  · rename_i p; cases p <;> simp_all [Node.kids]
  · rename_i p; cases p <;> simp_all [Node.kids]

/-- C51 on `f(...a, [...b])`; `(...a)` and `x = ...a` are errors. -/
example :
    let sp (x : Txt) := [Demo.p .spread t!"...", Demo.id x]
    Demo.parse ([Demo.id t!"f", Demo.p .openParen t!"("] ++ sp t!"a" ++
      [Demo.p .comma t!",", Demo.p .openBracket t!"["] ++ sp t!"b" ++
      [Demo.p .closeBracket t!"]", Demo.p .closeParen t!")"]) =
    .ok (.script [.stmt (.expr (.call (.ident t!"f") [.spread (.ident t!"a"),
      .array [some (.spread (.ident t!"b"))]]))]) ∧
    (Demo.parse (Demo.p .openParen t!"(" :: (sp t!"a" ++ [Demo.p .closeParen t!")"]))).isOk = false ∧
    (Demo.parse ([Demo.id t!"x", Demo.p .assign t!"="] ++ sp t!"a")).isOk = false := by
  refine ⟨?_, ?_, ?_⟩ <;> kernel_rfl

/-! ## C52 -/

/-- The members of a class are methods, accessors and the constructor, with a function without
name as value; a class declaration among the parts and in function bodies has a name. -/
theorem class_members (hok : ScannerOk b.js (L.scan b.js)) :
    (∀ id sup ms, Occurs L b (.cls (.mk id sup ms)) → ∀ k v kind m c short,
      Property.mk k v kind m c short ∈ ms → kind ≠ .init ∧ short = false ∧
        ∃ as l g a, v = .expr (.function (.mk none as l g a))) ∧
    (∀ sup ms, ¬ Occurs L b (.part (.decl (.class (.mk none sup ms))))) := by
  constructor
  · intro id sup ms hw k v kind m c short hm
    obtain ⟨aw, hl, -⟩ := occurs_shape hok hw
    exact hl _ hm
  · intro sup ms hw
    obtain ⟨aw, hl, -⟩ := occurs_shape hok hw
    simp [ShapeAt] at hl

/-- A declaration of an array or object pattern has an initializer, except for `const` (see the
example) and in the head of a loop, and the variable of a `for`-`in` or `for`-`of` loop declared by
`let` or `const` has none. -/
theorem patterns_initialized (hok : ScannerOk b.js (L.scan b.js)) :
    (∀ ds p, Occurs L b (.stmt (.var ds)) → VariableDecl.mk p none ∈ ds → ∃ n, p = .identifier n) ∧
    (∀ k ds p, k ≠ .const → Occurs L b (.decl (.variable k ds)) → VariableDecl.mk p none ∈ ds →
      ∃ n, p = .identifier n) ∧
    (∀ k p e r s, k ≠ .var → ¬ Occurs L b (.stmt (.forIn (.variable k (.mk p (some e))) r s))) ∧
    (∀ k p e r s a, k ≠ .var →
      ¬ Occurs L b (.stmt (.forOf (.variable k (.mk p (some e))) r s a))) := by
  have ident : ∀ p, Initialized (.mk p none) → ∃ n, p = .identifier n := fun p hp => by
    cases p <;> simp [Initialized, isPatIdent] at hp ⊢
  refine ⟨fun ds p hw hd => ?_, fun k ds p hk hw hd => ?_, fun k p e r s hk hw => ?_,
    fun k p e r s a hk hw => ?_⟩ <;> obtain ⟨aw, hl, -⟩ := occurs_shape hok hw
  · exact ident p (hl _ hd)
  · exact ident p (hl hk _ hd)
  · simpa [noInit] using hl hk
  · simpa [noInit] using hl hk

/-- C52 on `class A { m() {} }` and `var [a] = b`; `class { }` and `var [a]` are errors.  But a
`const` needs no initializer if the next word is `of`, loop or not: `const [a]⏎of`. -/
example :
    let pat := [Demo.p .openBracket t!"[", Demo.id t!"a", Demo.p .closeBracket t!"]"]
    let br := [Demo.p .openBrace t!"{", Demo.p .closeBrace t!"}"]
    Demo.parse ([Demo.k .class, Demo.id t!"A", Demo.p .openBrace t!"{", Demo.id t!"m",
      Demo.p .openParen t!"(", Demo.p .closeParen t!")"] ++ br ++ [Demo.p .closeBrace t!"}"]) =
      .ok (.script [.decl (.class (.mk (some t!"A") none [.mk (.expr (.ident t!"m"))
        (.expr (.function (.mk none [] [] false false))) .method true false false]))]) ∧
    Demo.parse (Demo.k .var :: pat ++ [Demo.p .assign t!"=", Demo.id t!"b"]) =
      .ok (.script [.stmt (.var [.mk (.array [some (.pat (.identifier t!"a"))])
        (some (.ident t!"b"))])]) ∧
    (Demo.parse (Demo.k .class :: br)).isOk = false ∧
    (Demo.parse (Demo.k .var :: pat)).isOk = false ∧
    Demo.parse (Demo.k .const :: pat ++ [Demo.nl (Demo.id t!"of")]) =
      .ok (.script [.decl (.variable .const [.mk (.array [some (.pat (.identifier t!"a"))]) none]),
        .stmt (.expr (.ident t!"of"))]) := by
  refine ⟨?_, ?_, ?_, ?_, ?_⟩ <;> kernel_rfl

end Ressa
