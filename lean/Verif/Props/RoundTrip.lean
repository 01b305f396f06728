import Verif.Props.Accept
import Verif.Proof.PrintAll
import Verif.Proof.PrintLayout
import Verif.Proof.Exec

/-!
# Printed programs parse back (C37)

`Print.parts` (`Verif.Spec.Print`) prints a list of program parts; it puts in the parentheses,
semicolons and braces that the tree needs, and yields `none` for trees that no text (of the covered
language: no names spelled `async`, no binding named by a keyword) has.
-/

namespace Ressa

open Gr Print

variable {L : Lexer} {b : Builder} {ps ps' : List ProgramPart} {l : List Pc} {o : List Tok}

/-- Any items that spell the printed program are parsed to that program. -/
theorem print_parse (hok : ScannerOk b.js (L.scan b.js)) (hx : ExtOk L.ext)
    (hp : Print.parts Env.top true ps = some l)
    (hs : Spelled (cfgOf L b) l (visible L b) o) (ho : head o = .eof) :
    ∃ s s', b.build L = .ok () s ∧
      parse s = .ok (if b.isModule then .mod ps else .script ps) s' :=
  core_accepted hok (program_ok rfl (parts_all (C := cfgOf L b) hx ps Env.top rfl) ⟨l, hp, hs⟩ ho)

/-- The same for a single expression with anything behind it that can continue neither it nor a
`yield` at its end. -/
theorem print_expression {e : Expr} (hok : ScannerOk b.js (L.scan b.js)) (hx : ExtOk L.ext)
    (hp : Print.sub 0 e (Print.expr Env.top e) = some l)
    (hs : Spelled (cfgOf L b) l (visible L b) o) (ho : ends (head o) = true)
    (hy : yieldStart (head o) = false ∨
      4 ≤ level e ∧ head o ≠ .ident ∧ head o ≠ .keyword .yield)
    (hc : head o ≠ .punct .comma) :
    ∃ s s', b.build L = .ok () s ∧ full.expression s = .ok e s' := by
  have ih := expr_all (C := cfgOf L b) hx e Env.top rfl
  have ho' := ends_soft2 ho
  refine core_expression (o := o) hok ?_
  rcases hy with hy | hy
  · refine sub_expression rfl ih ⟨l, hp, hs⟩ ?_
    simp only [stop0, stop2, ho'.1, hy, Bool.and_eq_true]
    exact ⟨⟨trivial, rfl⟩, by simpa using hc⟩
  · obtain ⟨-, n, -, hn, hw⟩ := sub_ok rfl ih (by omega) ⟨l, hp, hs⟩ ho'.2
    exact .expression (.assign (hw.single_soft (by omega) ho'.1 (.inr hy.2))) hc

/-! ## Laid out as text -/

/-- The pieces one after the other, with any white space between them; no line break where the
printer forbids it. -/
def LaidOut : List Pc → List Demo.Piece → Prop
  | [], [] => True
  | x :: l, p :: qs => (p.token = x.token ∧ p.text = x.text ∧ (x.glued = true → p.nl = false) ∧
      (x.tight = true → ∀ q ∈ qs.head?, q.nl = false)) ∧ LaidOut l qs
  | _, _ => False

/-- All on one line. -/
def oneLine (l : List Pc) : List Demo.Piece := l.map fun x => ⟨false, x.token, x.text⟩

theorem laidOut_oneLine : LaidOut l (oneLine l) := by
  induction l with
  | nil => exact trivial
  | cons x l ih =>
    refine ⟨⟨rfl, rfl, fun _ => rfl, fun _ q hq => ?_⟩, ih⟩
    cases l with
    | nil => cases hq
    | cons => cases hq; rfl

/-- If there is an `async` that has to stay with the next piece then line feeds are the only line
terminators. -/
def PlainLines (l : List Pc) : Prop := (∃ x ∈ l, x.tight = true) → ∀ x ∈ l, LfOnly x.text

theorem plainLines_of_loose (h : l.all (fun x => !x.tight) = true) : PlainLines l := by
  rintro ⟨x, hx, ht⟩
  rw [List.all_eq_true] at h
  simpa [ht] using h x hx

theorem plainLines_of_lf
    (h : l.all (fun x => x.text.all fun c => !isLineTerm c || c == '\n') = true) :
    PlainLines l := by
  intro _ x hx c hc ht
  rw [List.all_eq_true] at h
  simpa [ht] using List.all_eq_true.1 (h x hx) c hc

theorem laidOut_lf {qs : List Demo.Piece} (h : LaidOut l qs) (hl : ∀ x ∈ l, LfOnly x.text) :
    LfOnly (Demo.text qs) := by
  induction l generalizing qs with
  | nil =>
    cases qs with
    | nil => nofun
    | cons => cases h
  | cons x l ih =>
    cases qs with
    | nil => cases h
    | cons q qs =>
      obtain ⟨hxq, h⟩ := h
      rw [List.forall_mem_cons] at hl
      intro c hc
      simp only [Demo.text, List.mem_cons, List.mem_append] at hc
      rcases hc with rfl | hc | hc
      · cases q.nl
        · exact fun h => absurd h (by decide)
        · exact fun _ => rfl
      · exact hl.1 c (hxq.2.1 ▸ hc)
      · exact ih h hl.2 c hc

theorem demo_extOk : ExtOk Demo.ext where
  this := rfl
  function := rfl
  «class» := rfl
  ident := rfl
  restricted := nofun
  paren := rfl
  string := rfl
  numeric := rfl
  boolean := rfl
  null := rfl

theorem laidOut_ok {qs : List Demo.Piece} (h : LaidOut l qs) (hl : ∀ x ∈ l, PcOk x) :
    (∀ q ∈ qs, Demo.PieceOk q) ∧ ∀ q ∈ qs, q.token.isComment = false := by
  induction l generalizing qs with
  | nil =>
    cases qs with
    | nil => simp
    | cons => cases h
  | cons x l ih =>
    cases qs with
    | nil => cases h
    | cons q qs =>
      obtain ⟨hxq, h⟩ := h
      obtain ⟨h1, h2⟩ := ih h fun x hx => hl x (by simp [hx])
      obtain ⟨g1, g2, g3⟩ := hl x (by simp)
      simp only [List.forall_mem_cons]
      rw [← hxq.1] at g1 g2 g3
      rw [← hxq.2.1] at g3
      exact ⟨⟨⟨g1, g3⟩, h1⟩, g2, h2⟩

theorem laidOut_text {C : Cfg} {q : Demo.Piece} {qs : List Demo.Piece} (x : Txt)
    (hx : C.stream = x ++ Demo.text (q :: qs)) :
    C.text ⟨q.nl, q.token, blen x + 1, blen x + 1 + blen q.text⟩ = q.text := by
  have hc : (if q.nl then '\n' else ' ').utf8Size = 1 := by cases q.nl <;> rfl
  show C.textOf _ = _
  have : sliceB C.stream (blen x + 1) (blen x + 1 + blen q.text) = some q.text :=
    sliceB_iff.2 ⟨x ++ [if q.nl then '\n' else ' '], Demo.text qs, by simp [hx, Demo.text],
      by simp [hc], by simp [hc]⟩
  simp only [Cfg.textOf, this, Option.getD_some]

theorem laidOut_spelled {C : Cfg} {qs : List Demo.Piece} (h : LaidOut l qs) (ht : Tightly l)
    (hlf : (∃ x ∈ l, x.tight = true) → LfOnly C.stream) : ∀ x : Txt,
    C.stream = x ++ Demo.text qs →
    ∃ e, e.item.token = .eof ∧ C.text e = t!"" ∧ Spelled C l (Demo.items qs (blen x)) [e] := by
  induction l generalizing qs with
  | nil =>
    cases qs with
    | nil =>
      intro x hx
      refine ⟨_, rfl, ?_, rfl⟩
      have : sliceB C.stream (blen x) (blen x) = some t!"" :=
        sliceB_iff.2 ⟨x, [], by simp [hx, Demo.text], rfl, rfl⟩
      show C.textOf _ = _
      simp only [Cfg.textOf, this, Option.getD_some]
    | cons => cases h
  | cons p l ih =>
    cases qs with
    | nil => cases h
    | cons q qs =>
      obtain ⟨hxq, h⟩ := h
      intro x hx
      have hc : (if q.nl then '\n' else ' ').utf8Size = 1 := by cases q.nl <;> rfl
      have hx' : C.stream = (x ++ (if q.nl then '\n' else ' ') :: q.text) ++ Demo.text qs := by
        rw [hx]; simp [Demo.text]
      obtain ⟨e, h1, h1', h2⟩ := ih h ht.tail
        (fun ⟨x, hx, hx'⟩ => hlf ⟨x, by simp [hx], hx'⟩) _ hx'
      have hlen : blen (x ++ (if q.nl then '\n' else ' ') :: q.text) =
          blen x + 1 + blen q.text := by
        simp [hc]; omega
      refine ⟨e, h1, h1', _, _, rfl, ⟨hxq.1, ?_, hxq.2.2.1, fun hp => ?_⟩, hlen ▸ h2⟩
      · rw [← hxq.2.1]
        exact laidOut_text x hx
      · have hs := hlf ⟨p, by simp, hp⟩
        cases l with
        | nil => rw [show p.tight = false from ht] at hp; cases hp
        | cons y l =>
          cases qs with
          | nil => cases h
          | cons q' qs =>
            have hy := ht.1 hp
            have hq' : q'.nl = false := hxq.2.2.2 hp q' rfl
            refine ⟨_, _, rfl, hs, ⟨t!" ", ?_, by simp⟩, ?_⟩
            · refine sliceB_iff.2 ⟨x ++ (if q.nl then '\n' else ' ') :: q.text,
                q'.text ++ Demo.text qs, ?_, hlen, ?_⟩
              · rw [hx']; simp [Demo.text, hq']
              · have h0 : ' '.utf8Size = 1 := rfl
                simp only [blen_append, blen_cons, blen_nil, hc, h0]
                omega
            · have := laidOut_text _ hx'
              rw [hlen] at this
              rw [this, h.1.2.1]
              cases hw : y.text with
              | nil => rw [hw] at hy; cases hy
              | cons c w => rw [hw] at hy; exact ⟨c, w, rfl, by simpa [visibleName] using hy⟩

theorem visible_of_no_comment {qs : List Demo.Piece} {tolerant isModule : Bool}
    (h : ∀ q ∈ qs, q.token.isComment = false) :
    visible (Demo.lexer qs) (Demo.builder qs tolerant isModule) = Demo.items qs 0 := by
  have : ∀ n, (Demo.items qs n).filter (fun t => !t.item.token.isComment) = Demo.items qs n := by
    induction qs with
    | nil => intro n; rfl
    | cons q qs ih =>
      intro n
      simp only [List.forall_mem_cons] at h
      have hq : (!q.token.isComment) = true := by rw [h.1]; rfl
      simp only [Demo.items, List.filter_cons]
      rw [if_pos hq, ih h.2]
  exact this 0

/-- Print a program, lay the pieces out as text, build a parser for the text and run it: the result
is the program. -/
theorem print_layout_parse {qs : List Demo.Piece} {tolerant isModule : Bool}
    (hp : Print.parts Env.top true ps = some l) (hq : LaidOut l qs) (hl : PlainLines l) :
    Demo.parse qs tolerant isModule = .ok (if isModule then .mod ps else .script ps) := by
  obtain ⟨hf, ht⟩ := parts_fine ps Env.top true l hp
  obtain ⟨h1, h2⟩ := laidOut_ok hq hf
  have hv := visible_of_no_comment (tolerant := tolerant) (isModule := isModule) h2
  obtain ⟨e, h3, -, h4⟩ := laidOut_spelled
    (C := cfgOf (Demo.lexer qs) (Demo.builder qs tolerant isModule)) hq ht
    (fun h => laidOut_lf hq (hl h)) [] rfl
  have h4' : Spelled (cfgOf (Demo.lexer qs) (Demo.builder qs tolerant isModule)) l
      (visible (Demo.lexer qs) (Demo.builder qs tolerant isModule)) [e] := by
    rw [hv]; exact h4
  obtain ⟨s, s', g1, g2⟩ := print_parse (b := Demo.builder qs tolerant isModule)
    (L := Demo.lexer qs) (Demo.scannerOk h1) demo_extOk hp h4' h3
  unfold Demo.parse Demo.start
  rw [g1]
  simp only [g2, Res.outcome, Demo.builder]
  rfl

/-- Two programs that are printed alike are equal. -/
theorem print_injective (hl : PlainLines l) (h : Print.parts Env.top true ps = some l)
    (h' : Print.parts Env.top true ps' = some l) : ps = ps' := by
  have hq := laidOut_oneLine (l := l)
  have h1 := print_layout_parse (tolerant := false) (isModule := false) h hq hl
  rw [print_layout_parse h' hq hl] at h1
  simpa using h1.symm

/-! ## C37 on concrete programs -/

namespace Demo

/-- The printed text. -/
def printed (ps : List ProgramPart) : Option Txt :=
  (Print.parts Env.top true ps).map fun l => text (oneLine l)

/-- A name. -/
def v (n : Txt) : Expr := .ident n
/-- An expression statement. -/
def ex (e : Expr) : ProgramPart := .stmt (.expr e)
/-- A property key. -/
def key (n : Txt) : PropertyKey := .expr (.ident n)
/-- A function value. -/
def fn (ps : List FunctionArg) (b : List ProgramPart) : PropertyValue :=
  .expr (.function (.mk none ps b false false))

/-- Operators of all strengths. -/
def operators : List ProgramPart :=
  [ex (.binary .times (.binary .plus (v t!"a") (v t!"b")) (.binary .minus (v t!"c")
      (.binary .minus (v t!"d") (v t!"e")))),
    ex (.binary .powerOf (.binary .powerOf (v t!"a") (v t!"b")) (.binary .powerOf
      (.unary .minus (v t!"c") true) (v t!"d"))),
    ex (.logical .and (.logical .or (v t!"a") (v t!"b")) (.binary .in (v t!"c") (v t!"d"))),
    ex (.conditional (.assignment .equal (v t!"a") (v t!"b")) (.conditional (v t!"c") (v t!"e")
      (v t!"d")) (.sequence [v t!"f", v t!"g"])),
    ex (.assignment .plusEqual (.member (v t!"a") (v t!"b") false) (.assignment .equal
      (.array [some (v t!"x"), none, some (.spread (v t!"y"))]) (v t!"z"))),
    ex (.member (.new (.member (.call (v t!"a") []) (v t!"b") false) [v t!"c", .spread (v t!"d")])
      (.literal (.string t!"'k'")) true),
    ex (.call (.function (.mk none [] [] false false)) []),
    ex (.unary .typeOf (.update .increment (v t!"a") false) true),
    ex (.update .decrement (.member (.object []) (v t!"x") true) true),
    ex (.taggedTemplate (v t!"t") [v t!"a"]
      [⟨t!"`x${", t!"x", false⟩, ⟨t!"}y`", t!"y", true⟩]),
    ex (.binary .over (.literal (.number t!"1")) (.literal (.regex ⟨t!"[a]", t!"g"⟩))),
    ex (.arrowExpr [.expr (v t!"a"), .expr (v t!"b")] (.object []) true false false)]

example : printed operators = some t!" ( a + b ) * ( c - ( d - e ) ) ; ( a ** b ) ** - c ** d ; \
( a || b ) && c in d ; ( a = b ) ? ( f , g ) : c ? d : e ; a . b += [ x , , ... y ] = z ; \
new ( a ( ) . b ) ( c , ... d ) [ 'k' ] ; ( function ( ) { } ( ) ) ; typeof a ++ ; \
-- { } [ x ] ; t `x${ a }y` ; 1 / /[a]/g ; ( a , b ) => ( { } ) ;" := by kernel_rfl

/-- Statements of all kinds. -/
def statements : List ProgramPart :=
  [.dir t!"'d'" t!"d",
    ex (.call (v t!"f") []),
    .stmt (.var [.mk (.identifier t!"x") none, .mk (.object [.assignment (.mk (key t!"y") .none
      .init false false true), .assignment (.mk (key t!"z") (.pat (.array [some (.pat (.assignment
      (.identifier t!"w") (.literal (.number t!"1"))))])) .init false false false), .rest
      (.restElement (.identifier t!"r"))]) (some (v t!"o"))]),
    .decl (.variable .const [.mk (.identifier t!"c") (some (.this))]),
    .stmt (.if (v t!"a") (.block [.stmt (.if (v t!"b") .empty none)]) (some (.if (v t!"c") (.expr
      (v t!"d")) none))),
    .stmt (.for (some (.variable .let [.mk (.identifier t!"i") (some (.binary .in (v t!"a")
      (v t!"b")))])) (some (v t!"c")) (some (.update .increment (v t!"i") false)) (.continue none)),
    .stmt (.for none none none (.break none)),
    .stmt (.forIn (.variable .var (.mk (.identifier t!"k") none)) (.sequence [v t!"a", v t!"b"])
      .empty),
    .stmt (.forOf (.variable .const (.mk (.array [some (.pat (.identifier t!"k")), none]) none))
      (v t!"l") (.block []) true),
    .stmt (.forOf (.expr (.member (v t!"a") (v t!"b") false)) (v t!"l") .debugger false),
    .stmt (.while (v t!"a") (.doWhile (v t!"b") (.expr (v t!"c")))),
    .stmt (.labeled t!"m" (.labeled t!"n" (.while (v t!"a") (.continue (some t!"m"))))),
    .stmt (.switch (v t!"a") [.mk (some (v t!"b")) [.stmt (.break none)], .mk none [],
      .mk (some (v t!"c")) [ex (v t!"d")]]),
    .stmt (.try [.stmt (.throw (v t!"e"))] (some (.mk (some (.identifier t!"e")) [])) (some [])),
    .stmt (.try [] (some (.mk none [])) none),
    .stmt (.with (v t!"a") (.expr (.literal (.string t!"'s'"))))]

example : printed statements = some t!" 'd' ; f ( ) ; var x , { y , z : [ w = 1 ] , ... r } = o ; \
const c = this ; if ( a ) { if ( b ) ; } else if ( c ) d ; \
for ( let i = ( a in b ) ; c ; i ++ ) continue ; for ( ; ; ) break ; \
for ( var k in a , b ) ; for await ( const [ k , , ] of l ) { } for ( ( a . b ) of l ) debugger ; \
while ( a ) do c ; while ( b ) ; m : n : while ( a ) continue m ; \
switch ( a ) { case b : break ; default : case c : d ; } try { throw e ; } catch ( e ) { } \
finally { } try { } catch { } with ( a ) ( 's' ) ;" := by kernel_rfl

/-- Functions, classes and object literals. -/
def functions : List ProgramPart :=
  [.decl (.function (.mk (some t!"f") [.pat (.identifier t!"a"), .pat (.assignment (.identifier
      t!"b") (.literal (.number t!"1"))), .pat (.restElement (.identifier t!"c"))]
      [.dir t!"'d'" t!"d", .stmt (.return (some (.sequence [v t!"a", .metaProperty t!"new"
        t!"target"])))] true false)),
    .decl (.class (.mk (some t!"A") (some (v t!"B")) [
      .mk (key t!"constructor") (fn [] [ex (.call .super [])]) .ctor true false false,
      .mk (key t!"x") (fn [] [.stmt (.return none)]) .get false false false,
      .mk (key t!"x") (fn [.pat (.identifier t!"n")] []) .set false false false,
      .mk (key t!"k") (fn [] [ex (.member .super (v t!"m") false)]) .method true true false])),
    ex (.class (.mk none none [])),
    ex (.object [.property (.mk (key t!"a") .none .init false false true),
      .property (.mk (.literal (.string t!"'b'")) (.expr (v t!"c")) .init false false false),
      .property (.mk (key t!"g") (fn [] []) .get false false false),
      .property (.mk (key t!"m") (fn [] []) .init true false false), .spread (.spread (v t!"d"))]),
    ex (.arrowBlock [.expr (v t!"a")] [.stmt (.return (some (v t!"a")))] false false false),
    ex (.arrowExpr [.expr (v t!"a"), .expr (.array [some (v t!"b")]), .pat (.restElement
      (.identifier t!"c"))] (v t!"c") true false false),
    ex (.assignment .equal (v t!"g") (.arrowExpr [] (.arrowExpr [.expr (v t!"x")] (.binary .plus
      (v t!"x") (.literal (.number t!"1"))) true false false) true false false))]

example : printed functions = some t!" function * f ( a , b = 1 , ... c ) { 'd' ; return a , \
new . target ; } class A extends B { constructor ( ) { super ( ) ; } get x ( ) { return ; } \
set x ( n ) { } [ k ] ( ) { super . m ; } } ( class { } ) ; \
( { a , 'b' : c , get g ( ) { } , m ( ) { } , ... d } ) ; ( a ) => { return a ; } ; \
( a , [ b ] , ... c ) => c ; g = ( ) => ( x ) => x + 1 ;" := by kernel_rfl

/-- `async`, `await` and `yield`. -/
def waiting : List ProgramPart :=
  [ex (.function (.mk (some t!"f") [.pat (.identifier t!"a")] [ex (.await (.call (v t!"g")
      [v t!"a"])), .stmt (.forOf (.expr (v t!"x")) (v t!"y") .empty true),
      .stmt (.return (some (.binary .plus (.await (v t!"b")) (.literal (.number t!"1")))))] false
      true)),
    .decl (.function (.mk (some t!"g") [] [ex (.yield none false), ex (.yield (some (v t!"a")) false),
      ex (.yield (some (.assignment .equal (v t!"b") (.yield (some (v t!"c")) true))) true),
      ex (.yield (some (.object [])) false),
      ex (.call (v t!"f") [.yield (some (.arrowExpr [.expr (v t!"x")] (v t!"x") true false false))
        false, .yield none false])] true false)),
    ex (.assignment .equal (v t!"h") (.function (.mk none [] [ex (.yield (some (.await (v t!"a")))
      false)] true true))),
    ex (.call (.function (.mk none [] [] false true)) []),
    ex (.assignment .equal (v t!"h") (.arrowExpr [.pat (.identifier t!"x")] (v t!"x") true false
      true)),
    ex (.assignment .equal (v t!"h") (.arrowBlock [.expr (v t!"x"), .expr (.array [])] [] false false
      true)),
    ex (.assignment .equal (v t!"o") (.object [.property (.mk (key t!"m") (.expr (.function
      (.mk none [] [ex (.await (.this))] false true))) .init true false false)])),
    .decl (.class (.mk (some t!"C") none [.mk (key t!"m") (.expr (.function (.mk none []
      [ex (.await (.this))] false true))) .method true false false])),
    .decl (.export (.namedDecl (.function (.mk (some t!"k") [] [] false true))))]

example : printed waiting = some t!" ( async function f ( a ) { await g ( a ) ; \
for await ( x of y ) ; return await b + 1 ; } ) ; function * g ( ) { yield ; yield a ; \
yield * b = yield * c ; yield ( { } ) ; f ( yield ( x ) => x , yield ) ; } \
h = async function * ( ) { yield ( await a ) ; } ; ( async function ( ) { } ) ( ) ; \
h = async x => x ; h = async ( x , [ ] ) => { } ; o = { async m ( ) { await this ; } } ; \
class C { async m ( ) { await this ; } } export async function k ( ) { }" := by kernel_rfl

/-- The pieces of this program. -/
def waitingPieces : List Pc := (Print.parts Env.top true waiting).getD []

example : Print.parts Env.top true waiting = some waitingPieces ∧ PlainLines waitingPieces ∧
    (waitingPieces.any fun x => x.tight) = true ∧
    Demo.parse (oneLine waitingPieces) = .ok (.script waiting) := by
  have h : Print.parts Env.top true waiting = some waitingPieces := by kernel_rfl
  have hl : PlainLines waitingPieces := plainLines_of_lf (by kernel_rfl)
  exact ⟨h, hl, by kernel_rfl, print_layout_parse h laidOut_oneLine hl⟩

/-- Imports and exports. -/
def exchange : List ProgramPart :=
  [.decl (.import ⟨[], t!"'m'"⟩),
    .decl (.import ⟨[.default t!"a", .normal t!"b" none, .normal t!"if" (some t!"c")], t!"'m'"⟩),
    .decl (.import ⟨[.default t!"d", .namespace t!"n"], t!"'m'"⟩),
    .decl (.export (.all t!"'m'")),
    .decl (.export (.namedSpecifier [⟨t!"a", none⟩, ⟨t!"b", some t!"default"⟩] none)),
    .decl (.export (.namedSpecifier [⟨t!"default", some t!"z"⟩] (some t!"'m'"))),
    .decl (.export (.namedDecl (.variable .const [.mk (.identifier t!"k") (some (v t!"a"))]))),
    .decl (.export (.namedDecl (.function (.mk (some t!"f") [] [] false false)))),
    .decl (.export (.defaultDecl (.class (.mk none none [])))),
    .decl (.export (.defaultExpr (.function (.mk none [] [] false false))))]

example : printed exchange = some t!" import 'm' ; import a , { b , if as c } from 'm' ; \
import d , * as n from 'm' ; export * from 'm' ; export { a , b as default } ; \
export { default as z } from 'm' ; export const k = a ; ; export function f ( ) { } \
export default class { } export default ( function ( ) { } )" := by kernel_rfl

/-- A tree without a text: an object literal that is assigned to with a method in it. -/
example : printed [ex (.assignment .equal (.object [.property (.mk (key t!"m") (fn [] []) .init
    true false false)]) (v t!"a"))] = none := by kernel_rfl

end Demo

end Ressa
