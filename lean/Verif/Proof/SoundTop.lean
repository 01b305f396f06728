import Verif.Proof.SoundStmt
import Verif.Props.Context
import Verif.Props.Progress
import Verif.Props.Positions
import Verif.Spec.Scanner

/-!
# Every successful run is a derivation: the public calls
-/

namespace Ressa

open Gr

variable {C : Cfg} {Γ : Env} {i : List Tok} {R : Rec}

theorem RecOk.step [RecOk C R] : RecOk C (step R) where
  assign _ _ _ := Fl.assignExpr
  expression _ _ := Rn.expression
  keeps := Kp.expression
  unary _ _ _ := Fl.unaryExpr
  expo _ _ _ := Fl.expoExpr
  lhs _ _ _ := Fl.lhsExpr
  stmt _ _ := Rn.statement
  listItem _ _ := Rn.statementListItem
  pattern _ _ _ := Rn.pattern

theorem recN_ok (C : Cfg) : ∀ n, RecOk C (recN n)
  | 0 => by
    constructor <;> intros <;> first
      | exact Run.never fun s a s' h => nomatch h
      | exact RunF.never fun s a s' h => nomatch h
      | exact Keeps.never fun s a s' h => nomatch h
  | n + 1 => by
    haveI := recN_ok C n
    exact RecOk.step

theorem Run.ofFuel {α : Type} {F : Nat → P α} {Q} (h : ∀ n, Run C Γ i (F n) Q) :
    Run C Γ i (fun s => F (mu s + 1) s) Q :=
  fun s a s' hs e => h _ s a s' hs e

theorem RunF.ofFuel {α : Type} {F : Nat → P α} {f Q} (h : ∀ n, RunF C Γ f i (F n) Q) :
    RunF C Γ f i (fun s => F (mu s + 1) s) Q :=
  fun s a s' hs hf e => h _ s a s' hs hf e

theorem Keeps.ofFuel {α : Type} {F : Nat → P α} (h : ∀ n, Keeps (F n)) :
    Keeps (fun s => F (mu s + 1) s) := fun s a s' e => h _ s a s' e

instance full_ok : RecOk C full where
  assign _ _ _ := RunF.ofFuel fun n => (recN_ok C n).assign _ _ _
  expression _ _ := Run.ofFuel fun n => (recN_ok C n).expression _ _
  keeps := Keeps.ofFuel fun n => (recN_ok C n).keeps
  unary _ _ _ := RunF.ofFuel fun n => (recN_ok C n).unary _ _ _
  expo _ _ _ := RunF.ofFuel fun n => (recN_ok C n).expo _ _ _
  lhs _ _ _ := RunF.ofFuel fun n => (recN_ok C n).lhs _ _ _
  stmt _ _ := Run.ofFuel fun n => (recN_ok C n).stmt _ _
  listItem _ _ := Run.ofFuel fun n => (recN_ok C n).listItem _ _
  pattern _ _ k := Run.ofFuel (F := fun n => (recN n).pattern k) fun n =>
    (recN_ok C n).pattern _ _ k

/-- A part is a directive if the parser is in the prologue and looks at a string, and a statement
list item otherwise. -/
theorem nextPart_sound {s p s'} (h : At C Γ i s) (hr : nextPart s = .ok p s') :
    ∃ o, At C Γ o s' ∧
      ((s.ctx.pastProlog = false ∧ head i = .string ∧ G C Γ (.directive p) i o) ∨
       ((s.ctx.pastProlog = true ∨ head i ≠ .string) ∧ G C Γ (.listItem p) i o)) := by
  unfold nextPart at hr
  simp only [readC, lookIs, get_and, get_bind] at hr
  rw [ite_run] at hr
  split at hr
  · next hc =>
    obtain ⟨q, s1, h1, hr⟩ := bind_eq_ok.1 hr
    obtain ⟨_, s2, h2, hr⟩ := bind_eq_ok.1 hr
    cases h2
    cases hr
    obtain ⟨o, ho, hG⟩ := Rn.directive _ _ _ h h1
    simp only [Bool.and_eq_true, Bool.not_eq_true', Token.isString_iff, h.head] at hc
    exact ⟨o, ⟨ho.cfg, ho.env, ho.pend, ho.eof, ho.comments, ho.get⟩, .inl ⟨hc.1, hc.2, hG⟩⟩
  · next hc =>
    obtain ⟨_, s2, h2, hr⟩ := bind_eq_ok.1 hr
    cases h2
    have h' : At C Γ i { s with ctx := { s.ctx with pastProlog := true } } :=
      ⟨h.cfg, h.env, h.pend, h.eof, h.comments, h.get⟩
    obtain ⟨o, ho, hG⟩ := full_ok.listItem Γ i _ _ _ h' hr
    refine ⟨o, ho, .inr ⟨?_, hG⟩⟩
    rw [h.head] at hc
    cases hp : s.ctx.pastProlog
    · right; intro he; rw [hp, he] at hc; exact hc rfl
    · exact .inl rfl

theorem next_sound {s p s'} (h : At C Γ i s) (hr : next s = .ok (some p) s') :
    head i ≠ .eof ∧ ∃ o, At C Γ o s' ∧
      ((s.ctx.pastProlog = false ∧ head i = .string ∧ G C Γ (.directive p) i o) ∨
       ((s.ctx.pastProlog = true ∨ head i ≠ .string) ∧ G C Γ (.listItem p) i o)) := by
  unfold next at hr
  simp only [lookIs, get_bind] at hr
  rw [ite_run] at hr
  split at hr
  · cases hr
  · next he =>
    obtain ⟨p, s1, h1, hr⟩ := bind_eq_ok.1 hr
    cases hr
    rw [Token.isEof_iff, h.head] at he
    exact ⟨he, nextPart_sound h h1⟩

theorem collects_sound {s ps s'} (h : At C Γ i s) (hr : Collects s ps s') :
    ∃ o, At C Γ o s' ∧ Parts C Γ s.ctx.pastProlog ps i o := by
  induction hr generalizing i with
  | nil => exact ⟨i, h, .nil⟩
  | @cons s p s1 ps s' h1 _ ih =>
    obtain ⟨he, o, ho, hc⟩ := next_sound h h1
    obtain ⟨o', ho', hP⟩ := ih ho
    have hf := (FrameJ.next h1).2
    simp only [h.head] at hf
    refine ⟨o', ho', ?_⟩
    rw [hf] at hP
    rcases hc with ⟨hc, hs, hG⟩ | ⟨hc, hG⟩
    · rw [hc, hs] at hP
      rw [hc]
      exact .dir hs hG hP
    · refine .item he hc hG ?_
      rcases hc with hc | hc
      · rw [hc] at hP; simpa using hP
      · rw [Token.isString_false.2 hc] at hP; simpa using hP

/-- The items of a text that are not comments. -/
def visible (L : Lexer) (b : Builder) : List Tok :=
  (L.scan b.js).filter fun t => !t.item.token.isComment

/-- The configuration of a parser. -/
def cfgOf (L : Lexer) (b : Builder) : Cfg :=
  { ext := L.ext, stream := b.js, tolerant := b.tolerant, isModule := b.isModule
    pendEnd := L.pendEnd b.js }

theorem build_at_exact {L : Lexer} {b : Builder} {s : St} (e : Bool)
    (hg : e = true → ∀ t ∈ visible L b, (cfgOf L b).text t ≠ t!"get")
    (hok : ScannerOk b.js (L.scan b.js)) (h : b.build L = .ok () s) :
    At { cfgOf L b with exact := e } Env.top (visible L b) s := by
  obtain ⟨a, s1, h1, h2⟩ := bind_eq_ok.1 h
  cases h2
  refine (nextItemGo_at (e := e) h1 rfl ?_ hg).2
  intro t ht _
  obtain ⟨raw, hraw, -⟩ := hok.items t ht
  exact Option.isSome_iff_exists.2 ⟨raw, hraw⟩

theorem build_at {L : Lexer} {b : Builder} {s : St} (hok : ScannerOk b.js (L.scan b.js))
    (h : b.build L = .ok () s) : At (cfgOf L b) Env.top (visible L b) s :=
  build_at_exact false nofun hok h

theorem build_prolog {L : Lexer} {b : Builder} {s : St} (h : b.build L = .ok () s) :
    s.ctx.pastProlog = false :=
  congrArg Prod.snd
    (FrameJ.bind FrameJ.nextItem (Q' := Any) (fun _ _ => FrameJ.pure trivial) _ _ _ h).2

/-- The parts of a successful `parse` are derivable, and the derivation consumes all items but
at most the end of file. -/
theorem parse_sound {L : Lexer} {b : Builder} {s s' : St} {prog : Program}
    (hok : ScannerOk b.js (L.scan b.js)) (hb : b.build L = .ok () s)
    (h : parse s = .ok prog s') :
    ∃ ps o, prog = (if b.isModule then .mod ps else .script ps) ∧
      Parts (cfgOf L b) Env.top false ps (visible L b) o ∧
      (o = [] ∨ ∃ e, e.item.token = .eof ∧ o = [e]) := by
  obtain ⟨ps, hc, hn, rfl⟩ := (parse_ok_iff ..).1 h
  obtain ⟨o, ho, hP⟩ := collects_sound (build_at hok hb) hc
  rw [build_prolog hb] at hP
  have hr : Reachable L b s' := ⟨s, hb, .tail .refl (.parseOk h)⟩
  refine ⟨ps, o, by rw [programOf, (reachable_settings hr).2.2.1], hP, ?_⟩
  have he := ((none_iff_eof _ _).1 hn).1
  have hrest := eof_rest hok (reachable_reading hok hr) he
  have hp := ho.pend
  rw [St.pend, hrest] at hp
  subst hp
  split
  · exact .inl rfl
  · exact .inr ⟨_, he, rfl⟩

/-- The expression of a successful `parse_expression` on a fresh parser is derivable. -/
theorem expression_sound {L : Lexer} {b : Builder} {s s' : St} {e : Expr}
    (hok : ScannerOk b.js (L.scan b.js)) (hb : b.build L = .ok () s)
    (h : full.expression s = .ok e s') :
    ∃ o, G (cfgOf L b) Env.top (.expression e) (visible L b) o := by
  obtain ⟨o, -, hG⟩ := full_ok.expression _ _ _ _ _ (build_at hok hb) h
  exact ⟨o, hG⟩

end Ressa
