import Verif.Proof.Print

/-!
# Printed expressions, one kind at a time

For every kind of expression: if its parts print well, so does the whole.
-/

namespace Ressa.Print
open Ressa.Gr

variable {C : Cfg} {Γ : Env}

/-! ## What is proved of the parts -/

def ElemsOk (C : Cfg) (Γ : Env) (l : List (Option Expr)) : Prop :=
  ∀ i o, Sp C (elems Γ l) i o → head o = .punct .closeBracket →
    Core C Γ (.elems (elemFlags l) l) i o

def ArgsOk (C : Cfg) (Γ : Env) (l : List Expr) : Prop :=
  ∀ i o, Sp C (args Γ l) i o → head o = .punct .closeParen →
    l = [] ∧ i = o ∨ Core C Γ (.argSeq l) i o

def SeqOk (C : Cfg) (Γ : Env) (l : List Expr) : Prop :=
  ∀ i o, Sp C (seqTail Γ l) i o →
    (l = [] ∧ i = o ∨ l ≠ [] ∧ head i = .punct .comma) ∧
    (stop0 true (head o) = true → Core C Γ (.seqTail (seqFlags l) l) i o)

def TplOk (C : Cfg) (Γ : Env) (es : List Expr) (qs : List TemplateElement) : Prop :=
  ∀ i o, Sp C (template Γ es qs) i o →
    (head i = .template .head ∨ head i = .template .noSub) ∧ C.other t!"async" i ∧
    Core C Γ (.tpl es qs) i o

def TplTailOk (C : Cfg) (Γ : Env) (es : List Expr) (qs : List TemplateElement) : Prop :=
  ∀ i o, Sp C (templateTail Γ es qs) i o →
    (head i = .template .body ∨ head i = .template .tail) ∧
    ∀ e k, Core C Γ (.expression e) k i → Core C Γ (.tplTail (e :: es) qs) k o

def PropsOk (C : Cfg) (Γ : Env) (l : List ObjectProperty) : Prop :=
  ∀ f i o, Sp C (props Γ l) i o → head o = .punct .closeBrace →
    Core C Γ (.props f l (propFlags f l)) i o

def ObjPropOk (C : Cfg) (Γ : Env) (x : ObjectProperty) : Prop :=
  ∀ f i o, Sp C (objProp Γ x) i o → head o = .punct .comma ∨ head o = .punct .closeBrace →
    Core C Γ (.prop f x (propFlags f [x])) i o

/-! ## Lists -/

theorem stop2_comma : stop2 true (.punct .comma) = true := by decide

theorem sp_sep {α : Type} {l : List α} {i o : List Tok} (h : Sp C (sep l) i o) :
    l = [] ∧ i = o ∨ l ≠ [] ∧ ∃ t, i = t :: o ∧ Is t .comma := by
  cases l with
  | nil => exact .inl ⟨rfl, sp_nil.1 h⟩
  | cons x l =>
    refine .inr ⟨by simp, ?_⟩
    have h : Sp C (lit [p .comma]) i o := h
    simp only [sp_cons, sp_nil, matches_p] at h
    obtain ⟨t, _, rfl, ⟨h1, -⟩, rfl⟩ := h
    exact ⟨t, rfl, h1⟩

theorem elems_nil : ElemsOk C Γ [] := by
  intro i o h ho
  simp only [elems, sp_nil] at h
  subst h
  exact .elemsEnd ho

theorem elems_none {l} (ih : ElemsOk C Γ l) : ElemsOk C Γ (none :: l) := by
  intro i o h ho
  simp only [elems, sp_cat, sp_cons, sp_nil, matches_p] at h
  obtain ⟨j, ⟨t, _, rfl, ⟨h1, -⟩, rfl⟩, h2⟩ := h
  exact .elemsHole h1 (ih _ _ h2 ho)

theorem Flags.and_true (f : Flags) : f.and (true, true) = f := by
  cases f; simp [Flags.and]

theorem stop2_head {t : Token} {o : List Tok} (h : head o = t) (ht : stop2 true t = true) :
    stop2 true (head o) = true := h ▸ ht

theorem elems_some {e l} (hΓ : Γ.allowIn = true) (ihe : ExprOk C Γ e) (ih : ElemsOk C Γ l) :
    ElemsOk C Γ (some e :: l) := by
  intro i o h ho
  simp only [elems, sp_cat] at h
  obtain ⟨j, h1, j', h2, h3⟩ := h
  have hb : stop2 true (head j) = true := by
    rcases sp_sep h2 with ⟨rfl, rfl⟩ | ⟨-, t, rfl, h4⟩
    · simp only [elems, sp_nil] at h3
      subst h3
      exact stop2_head ho (by decide)
    · exact stop2_head h4 (by decide)
  by_cases hsp : isSpread e = true
  · cases e <;> simp only [isSpread, Bool.false_eq_true] at hsp
    simp only [arg, isSpread, if_true] at h1
    obtain ⟨t, k, n, rfl, h5, h6, h7⟩ := ihe _ _ h1 (stop2_arrow hb)
    rcases sp_sep h2 with ⟨rfl, rfl⟩ | ⟨hl, t', rfl, h4⟩
    · simp only [elems, sp_nil] at h3
      subst h3
      simp only [elemFlags, isSpread, List.isEmpty_nil, Bool.not_true, Bool.and_false,
        Bool.false_eq_true, if_false, Flags.and_true, flags]
      exact .elemsSpreadLast h5 (h7.assign h6 (hΓ ▸ hb)) ho
    · have : l.isEmpty = false := by simpa using hl
      simp only [elemFlags, isSpread, this, Bool.not_false, Bool.and_true, if_true]
      exact .elemsSpread h5 (h7.assign h6 (hΓ ▸ hb)) h4 (ih _ _ h3 ho)
  · simp only [arg, hsp, Bool.false_eq_true, if_false] at h1
    have := sub_assign hΓ ihe h1 hb
    simp only [elemFlags, hsp, Bool.false_and, Bool.false_eq_true, if_false]
    rcases sp_sep h2 with ⟨rfl, rfl⟩ | ⟨hl, t', rfl, h4⟩
    · simp only [elems, sp_nil] at h3
      subst h3
      simp only [elemFlags, Flags.and_true]
      exact .elemsLast this ho
    · exact .elemsMore this h4 (ih _ _ h3 ho)

theorem args_nil : ArgsOk C Γ [] := by
  intro i o h _
  simp only [args, sp_nil] at h
  exact .inl ⟨rfl, h⟩

theorem args_cons {e l} (hΓ : Γ.allowIn = true) (ihe : ExprOk C Γ e) (ih : ArgsOk C Γ l) :
    ArgsOk C Γ (e :: l) := by
  intro i o h ho
  simp only [args, sp_cat] at h
  obtain ⟨j, h1, j', h2, h3⟩ := h
  right
  rcases sp_sep h2 with ⟨rfl, rfl⟩ | ⟨hl, t', rfl, h4⟩
  · simp only [args, sp_nil] at h3
    subst h3
    exact .argLast (arg_ok hΓ ihe h1 (stop2_head ho (by decide))) ho
  · have := arg_ok hΓ ihe h1 (stop2_head (t := .punct .comma) h4 (by decide))
    rcases ih _ _ h3 ho with ⟨rfl, -⟩ | h5
    · exact absurd rfl hl
    · exact .argMore this h4 h5

theorem args_ok {l} {t : Tok} {i o : List Tok} (ih : ArgsOk C Γ l) (h : Sp C (args Γ l) i o)
    (ht : Is t .openParen) {t' : Tok} {o' : List Tok} (ho : o = t' :: o') (ht' : Is t' .closeParen) :
    Core C Γ (.args l) (t :: i) o' := by
  subst ho
  rcases ih _ _ h ht' with ⟨rfl, rfl⟩ | h
  · exact .argsNone ht ht'
  · exact .args ht h ht'

theorem seq_nil : SeqOk C Γ [] := by
  intro i o h
  simp only [seqTail, sp_nil] at h
  subst h
  exact ⟨.inl ⟨rfl, rfl⟩, fun ho => .seqStop (W.stop0_stop2 ho).2⟩

theorem seq_cons {e l} (hΓ : Γ.allowIn = true) (ihe : ExprOk C Γ e) (ih : SeqOk C Γ l) :
    SeqOk C Γ (e :: l) := by
  intro i o h
  simp only [seqTail, sp_cat, sp_cons, sp_nil, matches_p] at h
  obtain ⟨_, ⟨t, _, rfl, ⟨h1, -⟩, rfl⟩, j, h2, h3⟩ := h
  refine ⟨.inr ⟨by simp, h1⟩, fun ho => ?_⟩
  refine .seqMore h1 (sub_assign hΓ ihe h2 ?_) ((ih _ _ h3).2 ho)
  rcases (ih _ _ h3).1 with ⟨-, rfl⟩ | ⟨-, h4⟩
  · exact (W.stop0_stop2 ho).1
  · exact stop2_head h4 (by decide)

theorem props_nil : PropsOk C Γ [] := by
  intro f i o h ho
  simp only [props, sp_nil] at h
  subst h
  exact .propsEnd ho

theorem propFlags_cons (f : Flags) (x : ObjectProperty) (l : List ObjectProperty) :
    propFlags f (x :: l) = propFlags (propFlags f [x]) l := by
  cases x with
  | spread e => simp only [propFlags]
  | property x => cases x; simp only [propFlags]

theorem props_cons {x l} (ihx : ObjPropOk C Γ x) (ih : PropsOk C Γ l) : PropsOk C Γ (x :: l) := by
  intro f i o h ho
  simp only [props, sp_cat] at h
  obtain ⟨j, h1, j', h2, h3⟩ := h
  rcases sp_sep h2 with ⟨rfl, rfl⟩ | ⟨hl, t', rfl, h4⟩
  · simp only [props, sp_nil] at h3
    subst h3
    exact .propsLast (ihx f _ _ h1 (.inr ho)) ho
  · rw [propFlags_cons]
    exact .propsMore (ihx f _ _ h1 (.inl h4)) h4 (ih _ _ _ h3 ho)

/-! ## Templates -/

theorem quasi_ok {kind : TemplateKind} {q : TemplateElement} {i o : List Tok}
    (h : Sp C (quasi kind q) i o) : ∃ t, i = t :: o ∧ t.item.token = .template kind ∧
      match kind with
      | .head => q = ⟨C.text t, q.cooked, false⟩ ∧ C.text t = '`' :: (q.cooked ++ ['$', '{'])
      | .body => q = ⟨C.text t, q.cooked, false⟩ ∧ C.text t = '}' :: (q.cooked ++ ['$', '{'])
      | .tail => q = ⟨C.text t, q.cooked, true⟩ ∧ C.text t = '}' :: (q.cooked ++ ['`'])
      | .noSub => q = ⟨C.text t, q.cooked, true⟩ ∧ C.text t = '`' :: (q.cooked ++ ['`']) := by
  obtain ⟨raw, cooked, tail⟩ := q
  cases kind <;> simp only [quasi, sp_only, decide_eq_true_eq, sp_cons, sp_nil] at h <;>
  · obtain ⟨⟨h1, rfl⟩, t, _, rfl, ⟨h2, h3, -⟩, rfl⟩ := h
    have h3 : C.text t = raw := h3
    subst h3
    exact ⟨t, rfl, h2, rfl, h1⟩

theorem tpl_plain {q} : TplOk C Γ [] [q] := by
  intro i o h
  simp only [template] at h
  obtain ⟨t, rfl, h1, h2, h3⟩ := quasi_ok h
  refine ⟨.inr h1, ?_, ?_⟩
  · simp only [Cfg.other, h3]
    intro h
    injection h with h
    revert h; decide
  · rw [h2]; exact .tplPlain h1 h3

theorem soft2_tpl {t : Token} (h : t = .template .body ∨ t = .template .tail) :
    soft2 true t = true ∧ t ≠ .punct .comma := by
  rcases h with rfl | rfl <;> exact ⟨rfl, nofun⟩

theorem tpl_more {e es q qs} (hΓ : Γ.allowIn = true) (ihe : ExprOk C Γ e)
    (ih : TplTailOk C Γ es qs) : TplOk C Γ (e :: es) (q :: qs) := by
  intro i o h
  simp only [template, sp_cat] at h
  obtain ⟨j, h0, k, h4, h5⟩ := h
  obtain ⟨t, rfl, h1, h2, h3⟩ := quasi_ok h0
  refine ⟨.inl h1, ?_, ?_⟩
  · simp only [Cfg.other, h3]
    intro h
    injection h with h
    revert h; decide
  · rw [h2]
    obtain ⟨h6, h7⟩ := ih _ _ h5
    exact .tpl h1 h3 (h7 _ _ (sub_closed_expression hΓ ihe h4 (soft2_tpl h6).1 (soft2_tpl h6).2))

theorem tail_last {q} : TplTailOk C Γ [] [q] := by
  intro i o h
  simp only [templateTail] at h
  obtain ⟨t, rfl, h1, h2, h3⟩ := quasi_ok h
  refine ⟨.inr h1, fun e k h => ?_⟩
  rw [h2]
  exact .tplLast h h1 h3

theorem tail_more {e es q qs} (hΓ : Γ.allowIn = true) (ihe : ExprOk C Γ e)
    (ih : TplTailOk C Γ es qs) : TplTailOk C Γ (e :: es) (q :: qs) := by
  intro i o h
  simp only [templateTail, sp_cat] at h
  obtain ⟨j, h0, k, h4, h5⟩ := h
  obtain ⟨t, rfl, h1, h2, h3⟩ := quasi_ok h0
  refine ⟨.inl h1, fun e k h => ?_⟩
  obtain ⟨h6, h7⟩ := ih _ _ h5
  rw [h2]
  exact .tplMore h h1 h3 (h7 _ _ (sub_closed_expression hΓ ihe h4 (soft2_tpl h6).1 (soft2_tpl h6).2))

theorem tpl_none {es qs} (h : template Γ es qs = none) : TplOk C Γ es qs := by
  intro i o hh
  rw [h] at hh
  exact (sp_none.1 hh).elim

theorem tail_none {es qs} (h : templateTail Γ es qs = none) : TplTailOk C Γ es qs := by
  intro i o hh
  rw [h] at hh
  exact (sp_none.1 hh).elim

end Ressa.Print
