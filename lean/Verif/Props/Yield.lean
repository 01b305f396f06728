import Verif.Proof.Yields
import Verif.Proof.Occurs
import Verif.Proof.DemoOk

/-!
# Where `yield` is an operator (C58)

A getter of a class leaves `yield` an operator for the rest of the text (`yield_after_get`), so
the statements are about texts without the word `get`.
-/

namespace Ressa
open Ressa.Tree Ressa.Gr

variable {L : Lexer} {b : Builder} {ps : List ProgramPart}

/-- `m` occurs in `n` outside every generator function and every method (*(quirk)* all methods make
`yield` an operator). -/
inductive OutsideGen (m : Node) : Node → Prop
  | refl : OutsideGen m m
  | step {n c : Node} {e : Edge} : (e, c) ∈ n.kids →
      (∀ id as l a, n ≠ .fn (.mk id as l true a)) →
      (∀ k v kind comp short, n = .prop (.mk k v kind true comp short) → c = .key k) →
      OutsideGen m c → OutsideGen m n

theorem outsideGen_calm {n m} (h : OutsideGen m n) : Calm false n → Calm false m := by
  induction h with
  | refl => exact id
  | @step n c e hk hn hp _ ih =>
    intro h
    refine ih ?_
    have := (calm_iff.1 h).2 _ hk
    have ha : yieldsIn false n c = false := by
      unfold yieldsIn
      split
      · rename_i id as l g a
        cases g
        · rfl
        · exact absurd rfl (hn _ _ _ _)
      · rename_i m' _ _ _ _
        cases m'
        · rfl
        · cases hp _ _ _ _ _ rfl
      · rfl
    rwa [ha] at this

theorem calm_parts {C Γ b ps i o} (hC : C.exact = true) (h : Parts C Γ b ps i o) :
    ∀ p ∈ ps, Calm Γ.gen (.part p) := by
  induction h with
  | nil => simp
  | dir _ hd _ ih => simpa using ⟨calm_of_G hC hd, ih⟩
  | item _ _ hd _ ih => simpa using ⟨calm_of_G hC hd, ih⟩

theorem occurs_calm {m : Node} (hok : ScannerOk b.js (L.scan b.js)) (hg : NoGet L b)
    (h : Occurs L b m) : ∃ y, Calm y m := by
  obtain ⟨n, hr, hs⟩ := h
  obtain ⟨y, hn⟩ : ∃ y, Calm y n := by
    obtain ⟨Γ, i, o, -, ⟨p, rfl, hG | hG⟩ | ⟨e, rfl, hG⟩⟩ :=
      returned_sound_exact true (fun _ => hg.text) hok hr
    · exact ⟨_, calm_of_G rfl hG⟩
    · exact ⟨_, calm_of_G rfl hG⟩
    · exact ⟨_, calm_of_G rfl hG⟩
  clear hok hg hr
  induction hs generalizing y with
  | refl => exact ⟨_, hn⟩
  | step hk _ ih => exact ih _ ((calm_iff.1 hn).2 _ hk)

/-- Every `yield` expression is inside a generator function or a method. -/
theorem yield_in_generator (hok : ScannerOk b.js (L.scan b.js)) (hg : NoGet L b)
    (h : Yields L b ps) (e : Option Expr) (d : Bool) :
    ∀ p ∈ ps, ¬ OutsideGen (.expr (.yield e d)) (.part p) := fun p hp hpl => by
  obtain ⟨o, hP⟩ := yields_sound_exact true
    (fun _ t ht => hg.text t (List.mem_filter.1 ht).1) hok h
  have := (calm_iff.1 (outsideGen_calm hpl (calm_parts rfl hP p hp))).1
  simp [YieldAt] at this

/-- A named function that is no generator contains no `yield` expression outside inner generator
functions and methods, even if it is itself inside one. -/
theorem yield_not_in_plain (hok : ScannerOk b.js (L.scan b.js)) (hg : NoGet L b) {n as l a}
    (hw : Occurs L b (.fn (.mk (some n) as l false a))) (e : Option Expr) (d : Bool) :
    ¬ OutsideGen (.expr (.yield e d)) (.fn (.mk (some n) as l false a)) := fun hpl => by
  obtain ⟨y, hf⟩ := occurs_calm hok hg hw
  have hf : Calm false (.fn (.mk (some n) as l false a)) := by
    refine .mk trivial fun x hx => ?_
    have := (calm_iff.1 hf).2 x hx
    simpa [yieldsIn] using this
  have := (calm_iff.1 (outsideGen_calm hpl hf)).1
  simp [YieldAt] at this

/-- `function f() { x }` and `function* f() { x }` -/
def genText (star : Bool) (x : List Demo.Piece) : List Demo.Piece :=
  Demo.k .function :: (if star then [Demo.p .asterisk t!"*"] else []) ++
    [Demo.id t!"f", Demo.p .openParen t!"(", Demo.p .closeParen t!")", Demo.p .openBrace t!"{"] ++
    x ++ [Demo.p .closeBrace t!"}"]

/-- `yield a` -/
def yieldText : List Demo.Piece := [Demo.k .yield, Demo.id t!"a"]

/-- C58 on `function* f() { yield a }`; in a plain function, also inside a generator, it is an
error. -/
example :
    Demo.parse (genText true yieldText) =
      .ok (.script [.decl (.function (.mk (some t!"f") []
        [.stmt (.expr (.yield (some (.ident t!"a")) false))] true false))]) ∧
    (Demo.parse (genText false yieldText)).isOk = false ∧
    (Demo.parse (genText true (genText false yieldText))).isOk = false ∧
    (Demo.parse yieldText).isOk = false := by
  refine ⟨?_, ?_, ?_, ?_⟩ <;> kernel_rfl

/-- `class A { w x() {} }` -/
def classText (w : List Demo.Piece) : List Demo.Piece :=
  [Demo.k .class, Demo.id t!"A", Demo.p .openBrace t!"{"] ++ w ++ [Demo.id t!"x",
    Demo.p .openParen t!"(", Demo.p .closeParen t!")", Demo.p .openBrace t!"{",
    Demo.p .closeBrace t!"}", Demo.p .closeBrace t!"}"]

/-- Why no item may be `get`: after `class A { get x() {} }` the parser takes `yield a` at the top
for a `yield` expression; after `class A { x() {} }` it does not. -/
theorem yield_after_get :
    (match Demo.parse (classText [Demo.id t!"get"] ++ yieldText) with
      | .ok (.script [_, .stmt (.expr (.yield (some (.ident n)) false))]) => n == t!"a"
      | _ => false) = true ∧
    (Demo.parse (classText [] ++ yieldText)).isOk = false := by
  refine ⟨?_, ?_⟩ <;> kernel_rfl

end Ressa
