import Verif.Proof.Occurs
import Verif.Proof.DemoOk

/-!
# What holds everywhere in the trees (C22-C30, C34, C36)

`Occurs L b m`: the node `m` occurs in something that the parser returns to some call of `next`,
`parse` or `parse_expression`, also to calls after errors.

`Yields L b ps`: `ps` are the parts that a new parser returns, by `next` or by `parse`, before
the first error.  `Outside m ps` says that the node `m` occurs in them outside every function body.
-/

namespace Ressa
open Ressa.Tree

variable {L : Lexer} {b : Builder} {ps : List ProgramPart}

/-! ## C22 -/

/-- Return statements occur only in function bodies. -/
theorem return_in_function (hok : ScannerOk b.js (L.scan b.js)) (h : Yields L b ps)
    (e : Option Expr) : ¬ Outside (.stmt (.return e)) ps := fun ho => by
  obtain ⟨σ, hσ, hl⟩ := outside_local hok h ho
  simp [Local, hσ] at hl

/-- C22 on `function f() { return a }`: there is a return statement; at the top level it is an
error. -/
example :
    Demo.parse [Demo.k .function, Demo.id t!"f", Demo.p .openParen t!"(", Demo.p .closeParen t!")",
      Demo.p .openBrace t!"{", Demo.k .return, Demo.id t!"a", Demo.p .closeBrace t!"}"] =
    .ok (.script [.decl (.function (.mk (some t!"f") [] [.stmt (.return (some (.ident t!"a")))]
      false false))]) ∧
    (Demo.parse [Demo.k .return, Demo.id t!"a"]).isOk = false := by
  constructor <;> kernel_rfl

/-! ## C23 -/

/-- No labelled statement is inside another one with the same label in the same function body. -/
theorem labels_distinct (hok : ScannerOk b.js (L.scan b.js)) {l : Txt}
    {s s' : Stmt} (hw : Occurs L b (.stmt (.labeled l s))) :
    ¬ Out (.stmt (.labeled l s')) (.stmt s) := fun ho => by
  obtain ⟨σ, he⟩ := occurs_ev hok hw
  have hk := (ev_iff.1 he).2 (.label l, .stmt s) (by simp [Node.kids, stmtKids])
  obtain ⟨τ, he', -, hl⟩ := ev_out ho hk
  exact (ev_iff.1 he').1 (hl _ (by simp))

/-- C23 on `a: ; a: function g() { a: ; }`: the same label in sequence and in a nested function
is accepted, nested in the same function it is not. -/
example :
    let a := [Demo.id t!"a", Demo.p .colon t!":"]
    let e := [Demo.p .semiColon t!";"]
    Demo.parse (a ++ e ++ a ++ [Demo.k .function, Demo.id t!"g", Demo.p .openParen t!"(",
      Demo.p .closeParen t!")", Demo.p .openBrace t!"{"] ++ a ++ e ++ [Demo.p .closeBrace t!"}"]) =
    .ok (.script [.stmt (.labeled t!"a" .empty), .stmt (.labeled t!"a"
      (.expr (.function (.mk (some t!"g") [] [.stmt (.labeled t!"a" .empty)] false false))))]) ∧
    (Demo.parse (a ++ [Demo.p .openBrace t!"{"] ++ a ++ e ++ [Demo.p .closeBrace t!"}"])).isOk =
      false := by
  constructor <;> kernel_rfl

/-! ## C24 -/

/-- `super` and `new.target` occur only in function bodies. -/
theorem super_in_function (hok : ScannerOk b.js (L.scan b.js)) (h : Yields L b ps) (m p : Txt) :
    ¬ Outside (.expr .super) ps ∧ ¬ Outside (.expr (.metaProperty m p)) ps := by
  constructor <;> intro ho <;> obtain ⟨σ, hσ, hl⟩ := outside_local hok h ho <;>
    simp [Local, hσ] at hl

/-- C24 on `function f() { super.a; new.target }`, and on `super.a` and `new.target` alone. -/
example :
    let m := [Demo.k .super, Demo.p .period t!".", Demo.id t!"a", Demo.p .semiColon t!";"]
    let n := [Demo.k .new, Demo.p .period t!".", Demo.id t!"target"]
    Demo.parse ([Demo.k .function, Demo.id t!"f", Demo.p .openParen t!"(", Demo.p .closeParen t!")",
      Demo.p .openBrace t!"{"] ++ m ++ n ++ [Demo.p .closeBrace t!"}"]) =
    .ok (.script [.decl (.function (.mk (some t!"f") [] [
      .stmt (.expr (.member .super (.ident t!"a") false)),
      .stmt (.expr (.metaProperty t!"new" t!"target"))] false false))]) ∧
    (Demo.parse m).isOk = false ∧ (Demo.parse n).isOk = false := by
  refine ⟨?_, ?_, ?_⟩ <;> kernel_rfl

/-! ## C25 -/

/-- A class has at most one constructor. -/
theorem one_constructor (hok : ScannerOk b.js (L.scan b.js)) {n sup es}
    (hw : Occurs L b (.cls (.mk n sup es))) {l1 l2 l3 k1 v1 m1 c1 s1 k2 v2 m2 c2 s2} :
    es ≠ l1 ++ .mk k1 v1 .ctor m1 c1 s1 :: (l2 ++ .mk k2 v2 .ctor m2 c2 s2 :: l3) := by
  rintro rfl
  obtain ⟨σ, hl⟩ := occurs_local hok hw
  simp only [Local, List.filter_append, List.filter_cons, isCtor, if_true, List.length_append,
    List.length_cons] at hl
  omega

/-- A constructor is not computed, is named `constructor` and is a plain function. -/
theorem constructor_shape (hok : ScannerOk b.js (L.scan b.js))
    {k v m c s} (hw : Occurs L b (.prop (.mk k v .ctor m c s))) :
    c = false ∧
    (k = .literal (.string t!"constructor") ∨ k = .expr (.ident t!"constructor") ∨
      k = .pat (.identifier t!"constructor")) ∧
    ∃ args body isAsync, v = .expr (.function (.mk none args body false isAsync)) := by
  obtain ⟨σ, h1, h2, h3⟩ := occurs_local hok hw
  refine ⟨h1, ?_, h3⟩
  unfold isKey at h2
  split at h2 <;> simp_all

/-- C25 on `class A { constructor() {} }`; two constructors are an error. -/
example :
    let c := [Demo.id t!"constructor", Demo.p .openParen t!"(", Demo.p .closeParen t!")",
      Demo.p .openBrace t!"{", Demo.p .closeBrace t!"}"]
    let cls (x : List Demo.Piece) := [Demo.k .class, Demo.id t!"A", Demo.p .openBrace t!"{"] ++ x ++
      [Demo.p .closeBrace t!"}"]
    Demo.parse (cls c) = .ok (.script [.decl (.class (.mk (some t!"A") none [
      .mk (.expr (.ident t!"constructor")) (.expr (.function (.mk none [] [] false false)))
        .ctor true false false]))]) ∧
    (Demo.parse (cls (c ++ c))).isOk = false := by
  constructor <;> kernel_rfl

/-! ## C26 -/

/-- Without tolerance getters have no parameter and setters have one, which is not a rest
parameter. -/
theorem accessor_arity (hok : ScannerOk b.js (L.scan b.js))
    (ht : b.tolerant = false) {k v kind m c s} (hw : Occurs L b (.prop (.mk k v kind m c s))) :
    (kind = .get → ∃ body, v = .expr (.function (.mk none [] body false false))) ∧
    (kind = .set → ∃ a body, v = .expr (.function (.mk none [a] body false false)) ∧
      (∀ p, a ≠ .pat (.restElement p)) ∧ ∀ e, a ≠ .expr (.spread e)) := by
  obtain ⟨σ, hl⟩ := occurs_local hok hw
  refine ⟨?_, ?_⟩
  · rintro rfl
    obtain ⟨args, body, rfl, h'⟩ := hl
    exact ⟨body, by rw [h' ht]⟩
  · rintro rfl
    obtain ⟨args, body, rfl, h'⟩ := hl
    obtain ⟨a, rfl, ha⟩ := h' ht
    exact ⟨a, body, rfl, by rintro p rfl; simp [isRestArg] at ha,
      by rintro p rfl; simp [isRestArg] at ha⟩

/-- C26 on `x = { get a() {}, set a(v) {} }`; with a parameter for the getter it is an error. -/
example :
    let o (g : List Demo.Piece) := [Demo.id t!"x", Demo.p .assign t!"=", Demo.p .openBrace t!"{",
      Demo.id t!"get", Demo.id t!"a", Demo.p .openParen t!"("] ++ g ++ [Demo.p .closeParen t!")",
      Demo.p .openBrace t!"{", Demo.p .closeBrace t!"}", Demo.p .comma t!",",
      Demo.id t!"set", Demo.id t!"a", Demo.p .openParen t!"(", Demo.id t!"v",
      Demo.p .closeParen t!")", Demo.p .openBrace t!"{", Demo.p .closeBrace t!"}",
      Demo.p .closeBrace t!"}"]
    Demo.parse (o []) = .ok (.script [.stmt (.expr (.assignment .equal (.ident t!"x")
      (.object [
        .property (.mk (.expr (.ident t!"a")) (.expr (.function (.mk none [] [] false false)))
          .get false false false),
        .property (.mk (.expr (.ident t!"a")) (.expr (.function (.mk none [.pat (.identifier t!"v")]
          [] false false))) .set false false false)])))]) ∧
    (Demo.parse (o [Demo.id t!"z"])).isOk = false := by
  constructor <;> kernel_rfl

/-! ## C27 -/

/-- A switch has at most one default case. -/
theorem one_default (hok : ScannerOk b.js (L.scan b.js))
    {d cs} (hw : Occurs L b (.stmt (.switch d cs))) {l1 l2 l3 b1 b2} :
    cs ≠ l1 ++ .mk none b1 :: (l2 ++ .mk none b2 :: l3) := by
  rintro rfl
  obtain ⟨σ, hl⟩ := occurs_local hok hw
  simp only [Local, List.filter_append, List.filter_cons, isDefault, Option.isNone_none, if_true,
    List.length_append, List.length_cons] at hl
  omega

/-- C27 on `switch (a) { default: case b: }`; two defaults are an error. -/
example :
    let s (x : List Demo.Piece) := [Demo.k .switch, Demo.p .openParen t!"(", Demo.id t!"a",
      Demo.p .closeParen t!")", Demo.p .openBrace t!"{", Demo.k .default, Demo.p .colon t!":"] ++ x ++
      [Demo.p .colon t!":", Demo.p .closeBrace t!"}"]
    Demo.parse (s [Demo.k .case, Demo.id t!"b"]) =
      .ok (.script [.stmt (.switch (.ident t!"a") [.mk none [], .mk (some (.ident t!"b")) []])]) ∧
    (Demo.parse (s [Demo.k .default])).isOk = false := by
  constructor <;> kernel_rfl

/-! ## C36 -/

/-- The names and literals of the parts are, in source order, the texts of some of the items. -/
theorem trees_spelled (hok : ScannerOk b.js (L.scan b.js)) (h : Yields L b ps) :
    ∃ ts, ts.Sublist (L.scan b.js) ∧
      List.Forall₂ (SpelledBy b.js) (ps.flatMap fun p => (Node.part p).leaves) ts := by
  obtain ⟨o, hP⟩ := yields_sound hok h
  obtain ⟨ts, h1, h2⟩ := (parts_sound hP).2.forall₂
  have h3 : ts.Sublist (L.scan b.js) := h1.trans List.filter_sublist
  refine ⟨ts, h3, ?_⟩
  have h4 : ∀ t ∈ ts, t ∈ L.scan b.js := fun t ht => h3.subset ht
  clear h1 h3 hP h
  generalize (ps.flatMap fun p => (Node.part p).leaves) = ls at h2 ⊢
  induction h2 with
  | nil => exact .nil
  | cons hs _ ih =>
    exact .cons (spelledBy hok (h4 _ (by simp)) hs) (ih fun t ht => h4 t (by simp [ht]))

/-- Every name or literal, also in what is returned after errors, is the text of an item. -/
theorem leaf_spelled (hok : ScannerOk b.js (L.scan b.js)) {l : Leaf}
    (hw : Occurs L b (.leaf l)) : ∃ t ∈ L.scan b.js, SpelledBy b.js l t := by
  obtain ⟨n, hn, hs⟩ := hw
  exact returned_spelled hok hn (leaf_mem hs)

/-- C36 on `var a = b + 1`: the items meet the hypotheses, and the leaves are `a`, `b` and `1`. -/
example :
    let f := [Demo.k .var, Demo.id t!"a", Demo.p .assign t!"=", Demo.id t!"b", Demo.p .plus t!"+",
      Demo.n t!"1"]
    let q := [ProgramPart.stmt (.var [.mk (.identifier t!"a")
      (some (.binary .plus (.ident t!"b") (.literal (.number t!"1"))))])]
    ScannerOk (Demo.text f) ((Demo.lexer f).scan (Demo.text f)) ∧
    Yields (Demo.lexer f) (Demo.builder f) q ∧
    (q.flatMap fun p => (Node.part p).leaves) = [.word t!"a", .word t!"b", .number t!"1"] := by
  intro f q
  refine ⟨Demo.scannerOk (by simp [f, Demo.PieceOk, ShapeOk, Demo.k, Demo.id, Demo.p, Demo.n]), ?_, ?_⟩
  · refine ⟨Demo.state f, Demo.after next (Demo.state f), ?_, .cons ?_ .nil⟩ <;> kernel_rfl
  · simp [q, leaves_con, Node.kids, stmtKids, exprKids, leaves_leaf, leafOf]

/-! ## C28 -/

/-- The shape of a template: one more piece of text than expressions, and exactly the last piece is
marked as the tail. -/
def TemplateShape (es : List Expr) (qs : List TemplateElement) : Prop :=
  ∃ qs' q, qs = qs' ++ [q] ∧ qs'.length = es.length ∧ q.tail = true ∧ ∀ q ∈ qs', q.tail = false

theorem tplOk_shape {es qs} (h : TplOk es qs) : TemplateShape es qs := by
  obtain ⟨h1, h2, h3⟩ := h
  rcases List.eq_nil_or_concat qs with rfl | ⟨qs', q, rfl⟩
  · simp at h1
  · refine ⟨qs', q, by simp, by simpa using h1, h3 q (by simp), ?_⟩
    simpa using h2

/-- Template literals and tagged templates are well shaped. -/
theorem template_shape (hok : ScannerOk b.js (L.scan b.js))
    {es qs} (hw : Occurs L b (.expr (.template es qs)) ∨
      ∃ t, Occurs L b (.expr (.taggedTemplate t es qs))) : TemplateShape es qs := by
  rcases hw with hw | ⟨t, hw⟩ <;> obtain ⟨σ, hl⟩ := occurs_local hok hw <;> exact tplOk_shape hl

/-- The raw text of a piece is the source text of a template item, and its cooked text is that
text without its delimiters. -/
theorem template_text (hok : ScannerOk b.js (L.scan b.js))
    {es qs q} (hw : Occurs L b (.expr (.template es qs)) ∨
      ∃ t, Occurs L b (.expr (.taggedTemplate t es qs))) (hq : q ∈ qs) :
    ∃ t ∈ L.scan b.js, Source b.js t q.raw ∧ (∃ k, t.item.token = .template k) ∧
      ∃ c, (c = '`' ∨ c = '}') ∧
        q.raw = c :: (q.cooked ++ if q.tail then ['`'] else ['$', '{']) := by
  have hl : Occurs L b (.leaf (.template q)) := by
    rcases hw with hw | ⟨t, hw⟩
    · exact hw.kid (e := .inner)
        (by simp only [Node.kids, exprKids, mem_pieces]; exact .inl ⟨q, hq, rfl⟩)
    · exact hw.kid (e := .inner)
        (by simp only [Node.kids, exprKids, List.mem_cons, mem_pieces]
            exact .inr (.inl ⟨q, hq, rfl⟩))
  obtain ⟨t, ht, h1, h2⟩ := leaf_spelled hok hl
  refine ⟨t, ht, h1, ?_⟩
  split
  · rename_i hq
    rw [if_pos hq] at h2
    rcases h2 with ⟨h2, h3⟩ | ⟨h2, h3⟩
    · exact ⟨⟨_, h2⟩, _, .inr rfl, h3⟩
    · exact ⟨⟨_, h2⟩, _, .inl rfl, h3⟩
  · rename_i hq
    rw [if_neg hq] at h2
    rcases h2 with ⟨h2, h3⟩ | ⟨h2, h3⟩
    · exact ⟨⟨_, h2⟩, _, .inl rfl, h3⟩
    · exact ⟨⟨_, h2⟩, _, .inr rfl, h3⟩

/-- C28 on `` `x${a}y` ``. -/
example :
    Demo.parse [⟨false, .template .head, t!"`x${"⟩, Demo.id t!"a", ⟨false, .template .tail, t!"}y`"⟩] =
    .ok (.script [.stmt (.expr (.template [.ident t!"a"]
      [⟨t!"`x${", t!"x", false⟩, ⟨t!"}y`", t!"y", true⟩]))]) := by
  kernel_rfl

/-! ## C29 -/

/-- A rest parameter of a function or method is its last parameter. -/
theorem rest_last (hok : ScannerOk b.js (L.scan b.js))
    {n args body g a} (hw : Occurs L b (.fn (.mk n args body g a))) {l1 x y l2}
    (ha : args = l1 ++ x :: y :: l2) :
    (∀ p, x ≠ .pat (.restElement p)) ∧ ∀ e, x ≠ .expr (.spread e) := by
  obtain ⟨σ, hl, -⟩ := occurs_local hok hw
  have := hl x (by rw [ha, List.dropLast_append_of_ne_nil (by simp)]; simp)
  exact ⟨by rintro p rfl; simp [isRestArg] at this, by rintro p rfl; simp [isRestArg] at this⟩

/-- C29 on `function f(a, ...b) {}`; `function f(...b, a) {}` is an error. -/
example :
    let f (x : List Demo.Piece) := [Demo.k .function, Demo.id t!"f", Demo.p .openParen t!"("] ++ x ++
      [Demo.p .closeParen t!")", Demo.p .openBrace t!"{", Demo.p .closeBrace t!"}"]
    Demo.parse (f [Demo.id t!"a", Demo.p .comma t!",", Demo.p .spread t!"...", Demo.id t!"b"]) =
      .ok (.script [.decl (.function (.mk (some t!"f")
        [.pat (.identifier t!"a"), .pat (.restElement (.identifier t!"b"))] [] false false))]) ∧
    (Demo.parse (f [Demo.p .spread t!"...", Demo.id t!"b", Demo.p .comma t!",", Demo.id t!"a"])).isOk =
      false := by
  constructor <;> kernel_rfl

/-! ## C30 -/

/-- A regular expression is the text of a token. -/
theorem regex_text (hok : ScannerOk b.js (L.scan b.js)) {r : RegEx}
    (hw : Occurs L b (.expr (.literal (.regex r)))) :
    '/' ∉ r.flags ∧ ∃ t ∈ L.scan b.js, t.item.token = .regex ∧
      Source b.js t ('/' :: (r.pattern ++ '/' :: r.flags)) := by
  have hl : Occurs L b (.leaf (.regex r)) :=
    hw.kid (e := .inner) (by simp [Node.kids, exprKids, leafOf])
  obtain ⟨t, ht, h1, h2, h3⟩ := leaf_spelled hok hl
  exact ⟨h2, t, ht, h1, h3⟩

/-- C30 on `/[/]a/gi`. -/
example :
    Demo.parse [⟨false, .regex, t!"/[/]a/gi"⟩] =
    .ok (.script [.stmt (.expr (.literal (.regex ⟨t!"[/]a", t!"gi"⟩)))]) := by
  kernel_rfl

/-! ## C34 -/

/-- Directives form a prefix of a program. -/
theorem directives_first (hok : ScannerOk b.js (L.scan b.js)) (h : Yields L b ps) {l1 p l2 s d l3}
    (hps : ps = l1 ++ p :: (l2 ++ .dir s d :: l3)) : ∃ s' d', p = .dir s' d' := by
  obtain ⟨o, hP⟩ := yields_sound hok h
  have := (parts_dirs hP).2 _ _ _ _ _ hps rfl
  cases p <;> first | exact ⟨_, _, rfl⟩ | simp [isDir] at this

/-- Everywhere else directives stand directly in a function body, not in a block, a case or the
like. -/
theorem directives_in_body (hok : ScannerOk b.js (L.scan b.js)) {n e s d}
    (hw : Occurs L b n) (hk : (e, .part (.dir s d)) ∈ n.kids) : e = .body := by
  obtain ⟨σ, hl⟩ := occurs_local hok hw
  have hp : ∀ {qs es}, ((e, .part (.dir s d)) : Edge × Node) ∉ pieces qs es := by
    intro qs es hm
    rcases mem_pieces.1 hm with ⟨q, _, hq⟩ | ⟨q, _, hq⟩ <;> cases hq
  cases n with
  | expr x =>
    cases x <;> simp [Node.kids, exprKids, hp] at hk
    exact hk.2.symm
  | stmt x =>
    cases x <;> simp [Node.kids, stmtKids] at hk
    · exact absurd (hl _ hk.1) (by simp [isDir])
    · rcases hk with hk | hk
      · exact absurd (hl.1 _ hk.1) (by simp [isDir])
      · exact absurd (hl.2 _ hk.1) (by simp [isDir])
  | pat x => cases x <;> simp [Node.kids] at hk
  | arrPart x => cases x <;> simp [Node.kids] at hk
  | objPart x => cases x <;> simp [Node.kids] at hk
  | objProp x => cases x <;> simp [Node.kids] at hk
  | prop x => cases x; simp [Node.kids] at hk
  | key x => cases x <;> simp [Node.kids] at hk
  | value x => cases x <;> simp [Node.kids] at hk
  | arg x => cases x <;> simp [Node.kids] at hk
  | fn x => cases x; simp [Node.kids] at hk; exact hk.2.symm
  | cls x => cases x; simp [Node.kids] at hk
  | varDecl x => cases x; simp [Node.kids] at hk
  | loopInit x => cases x <;> simp [Node.kids] at hk
  | loopLeft x => cases x <;> simp [Node.kids] at hk
  | case x => cases x; simp [Node.kids] at hk; exact absurd (hl _ hk.1) (by simp [isDir])
  | «catch» x => cases x; simp [Node.kids] at hk; exact absurd (hl _ hk.1) (by simp [isDir])
  | decl x =>
    cases x <;> simp [Node.kids] at hk
    obtain ⟨s, _, hk⟩ := hk
    cases s <;> simp [importLeaves] at hk
  | modExport x => cases x <;> simp [Node.kids, exportLeaves] at hk
  | part x => cases x <;> simp [Node.kids] at hk
  | leaf l => simp [Node.kids] at hk

/-- In a function body only directives and expression statements precede a directive. -/
theorem body_directives (hok : ScannerOk b.js (L.scan b.js))
    {body : List ProgramPart}
    (hw : (∃ n args g a, Occurs L b (.fn (.mk n args body g a))) ∨
      ∃ args x g a, Occurs L b (.expr (.arrowBlock args body x g a))) {l1 p l2 s d l3}
    (hb : body = l1 ++ p :: (l2 ++ .dir s d :: l3)) :
    (∃ s' d', p = .dir s' d') ∨ ∃ e, p = .stmt (.expr e) := by
  have hd : BodyDirs body := by
    rcases hw with ⟨_, _, _, _, hw⟩ | ⟨_, _, _, _, hw⟩ <;> obtain ⟨σ, hl⟩ := occurs_local hok hw
    · exact hl.2
    · exact hl
  obtain ⟨ds, l, rfl, h1, h2⟩ := hd
  have hp : p ∈ ds := by
    rcases List.append_eq_append_iff.1 hb with ⟨x, rfl, hx⟩ | ⟨x, rfl, hx⟩
    · exfalso
      have := h2 (.dir s d) (by rw [hx]; simp)
      simp [isDir] at this
    · cases x with
      | nil =>
        exfalso
        have := h2 (.dir s d) (by rw [← List.nil_append l, ← hx]; simp)
        simp [isDir] at this
      | cons y x =>
        have : p = y := by injection hx
        simp [this]
  have := h1 p hp
  unfold isDirOrExpr at this
  split at this
  · exact .inl ⟨_, _, rfl⟩
  · exact .inr ⟨_, rfl⟩
  · cases this

/-- A directive carries the source text of a string token, and that text without the quotes around
it: all of them, should it begin or end with several. -/
theorem directive_text (hok : ScannerOk b.js (L.scan b.js)) {s d}
    (hw : Occurs L b (.part (.dir s d))) :
    (∃ t ∈ L.scan b.js, t.item.token = .string ∧ Source b.js t s) ∧
    ∃ a z, s = a ++ d ++ z ∧ (∀ c ∈ a, c = '\'' ∨ c = '"') ∧ (∀ c ∈ z, c = '\'' ∨ c = '"') ∧
      (∀ c ∈ d.head?, c ≠ '\'' ∧ c ≠ '"') ∧ (∀ c ∈ d.getLast?, c ≠ '\'' ∧ c ≠ '"') := by
  obtain ⟨σ, hl⟩ := occurs_local hok hw
  have hl : d = trimQuotes s := hl
  subst hl
  refine ⟨?_, trimQuotes_spec s⟩
  have hl : Occurs L b (.leaf (.string s)) := hw.kid (e := .inner) (by simp [Node.kids])
  exact leaf_spelled hok hl

/-- C34: directives at the top, and the end of the prologue. -/
example :
    Demo.parse [Demo.str t!"'a'", Demo.p .semiColon t!";", Demo.str t!"\"b\"",
      Demo.p .semiColon t!";", Demo.id t!"x", Demo.p .semiColon t!";", Demo.str t!"'c'"] =
    .ok (.script [.dir t!"'a'" t!"a", .dir t!"\"b\"" t!"b", .stmt (.expr (.ident t!"x")),
      .stmt (.expr (.literal (.string t!"'c'")))]) := by
  kernel_rfl

/-- C34: in a function body, unlike in a program, a directive can follow an expression statement,
and the quotes of `"'"` are taken off to the last. -/
example :
    Demo.parse [Demo.k .function, Demo.id t!"f", Demo.p .openParen t!"(", Demo.p .closeParen t!")",
      Demo.p .openBrace t!"{", Demo.str t!"'a'", Demo.p .plus t!"+", Demo.id t!"b",
      Demo.p .semiColon t!";", Demo.str t!"\"'\"", Demo.p .closeBrace t!"}"] =
    .ok (.script [.decl (.function (.mk (some t!"f") []
      [.stmt (.expr (.binary .plus (.literal (.string t!"'a'")) (.ident t!"b"))),
        .dir t!"\"'\"" t!""] false false))]) := by
  kernel_rfl

/-- The same text at the top level: the string after the expression statement is not a directive. -/
example :
    Demo.parse [Demo.str t!"'a'", Demo.p .plus t!"+", Demo.id t!"b",
      Demo.p .semiColon t!";", Demo.str t!"'c'"] =
    .ok (.script [.stmt (.expr (.binary .plus (.literal (.string t!"'a'")) (.ident t!"b"))),
      .stmt (.expr (.literal (.string t!"'c'")))]) := by
  kernel_rfl

end Ressa
