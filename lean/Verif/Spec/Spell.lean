import Verif.Spec.Grammar
import Verif.Spec.Tree

/-!
# Trees spelled by items

`Spell C ls i o`: the names and literals `ls` are spelled, in this order, by some of the items that
lie between `i` and `o`.
-/

namespace Ressa.Tree
open Ressa.Gr

/-- The item spells the name or literal. -/
def Spelled (C : Cfg) : Leaf → Tok → Prop
  | .word w, t => C.text t = w ∨ ∃ k, Kw t k ∧ w = k.text
  | .string s, t => t.item.token = .string ∧ C.text t = s
  | .number s, t => t.item.token = .numeric ∧ C.text t = s
  | .boolean b, t => t.item.token = .boolean b
  | .regex r, t => t.item.token = .regex ∧ '/' ∉ r.flags ∧
      ∃ c, C.text t = c :: r.pattern ++ '/' :: r.flags
  | .template q, t => C.text t = q.raw ∧
      if q.tail then
        (t.item.token = .template .tail ∨ t.item.token = .template .noSub) ∧
          sliceB q.raw 1 (blen q.raw - 1) = some q.cooked
      else
        (t.item.token = .template .head ∨ t.item.token = .template .body) ∧
          sliceB q.raw 1 (blen q.raw - 2) = some q.cooked
  | .null, _ => False

/-- The item has the source text `w`. -/
def Source (text : Txt) (t : Tok) (w : Txt) : Prop :=
  sliceB text t.item.span.start t.item.span.stop = some w

/-- The item spells the name or literal: its text is that of the name or literal, with the
delimiters of regular expressions and template pieces. -/
def SpelledBy (text : Txt) : Leaf → Tok → Prop
  | .word w, t => Source text t w ∨ ∃ k, t.item.token = .keyword k ∧ w = k.text
  | .string s, t => t.item.token = .string ∧ Source text t s
  | .number s, t => t.item.token = .numeric ∧ Source text t s
  | .boolean b, t => t.item.token = .boolean b
  | .regex r, t => t.item.token = .regex ∧ '/' ∉ r.flags ∧
      Source text t ('/' :: (r.pattern ++ '/' :: r.flags))
  | .template q, t => Source text t q.raw ∧
      if q.tail then
        (t.item.token = .template .tail ∧ q.raw = '}' :: (q.cooked ++ ['`'])) ∨
          (t.item.token = .template .noSub ∧ q.raw = '`' :: (q.cooked ++ ['`']))
      else
        (t.item.token = .template .head ∧ q.raw = '`' :: (q.cooked ++ ['$', '{'])) ∨
          (t.item.token = .template .body ∧ q.raw = '}' :: (q.cooked ++ ['$', '{']))
  | .null, _ => False

/-- The names and literals `ls` are spelled, in this order, by some of the items between `i` and
`o`. -/
inductive Spell (C : Cfg) : List Leaf → List Tok → List Tok → Prop
  | nil {o} : Spell C [] o o
  | skip {ls t i o} : Spell C ls i o → Spell C ls (t :: i) o
  | take {l ls t i o} : Spelled C l t → Spell C ls i o → Spell C (l :: ls) (t :: i) o

end Ressa.Tree
