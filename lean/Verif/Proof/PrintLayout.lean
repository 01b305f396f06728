import Verif.Spec.Print
import Verif.Proof.DemoOk

/-!
# The printed pieces can be laid out

Every printed piece is one that a scanner can yield: no end of file, no comment, and with the
delimiters of its kind.
-/

namespace Ressa.Print
open Ressa.Gr

/-- A piece that a scanner can yield. -/
def PcOk (x : Pc) : Prop :=
  x.token ≠ .eof ∧ x.token.isComment = false ∧ ShapeOk x.text x.token

/-- Such a piece that need not be close to the next one. -/
def Loose (x : Pc) : Prop := PcOk x ∧ x.tight = false

/-- What follows a tight piece starts with something that can be seen on its line. -/
def Tightly : List Pc → Prop
  | [] => True
  | [x] => x.tight = false
  | x :: y :: l => (x.tight = true → visibleName y.text = true) ∧ Tightly (y :: l)

/-- All pieces are such. -/
def Fine (r : Out) : Prop := ∀ l, r = some l → (∀ x ∈ l, PcOk x) ∧ Tightly l

theorem Tightly.tail {x : Pc} {l : List Pc} (h : Tightly (x :: l)) : Tightly l := by
  cases l with
  | nil => exact trivial
  | cons => exact h.2

theorem tightly_loose {x : Pc} {l : List Pc} (hx : x.tight = false) (h : Tightly l) :
    Tightly (x :: l) := by
  cases l with
  | nil => exact hx
  | cons => exact ⟨by simp [hx], h⟩

theorem tightly_append {a b : List Pc} (ha : Tightly a) (hb : Tightly b) : Tightly (a ++ b) := by
  induction a with
  | nil => exact hb
  | cons x a ih =>
    cases a with
    | nil => exact tightly_loose ha hb
    | cons y a => exact ⟨ha.1, ih ha.2⟩

theorem fine_none : Fine none := nofun

theorem fine_lit {l : List Pc} (h : ∀ x ∈ l, Loose x) : Fine (lit l) := by
  rintro _ ⟨⟩
  refine ⟨fun x hx => (h x hx).1, ?_⟩
  induction l with
  | nil => exact trivial
  | cons x l ih => exact tightly_loose (h x (by simp)).2 (ih fun y hy => h y (by simp [hy]))

theorem fine_cat {a b : Out} (ha : Fine a) (hb : Fine b) : Fine (a +++ b) := by
  intro l h
  cases a with
  | none => cases h
  | some a =>
    cases b with
    | none => cases h
    | some b =>
      cases h
      exact ⟨fun x hx => (List.mem_append.1 hx).elim ((ha _ rfl).1 x) ((hb _ rfl).1 x),
        tightly_append (ha _ rfl).2 (hb _ rfl).2⟩

theorem fine_only {c : Bool} {r : Out} (h : c = true → Fine r) : Fine (only c r) := by
  cases c
  · exact fine_none
  · exact h rfl

theorem loose_p {x : Punct} : Loose (p x) := ⟨⟨nofun, rfl, trivial⟩, rfl⟩
theorem loose_k {x : Keyword} : Loose (k x) := ⟨⟨nofun, rfl, trivial⟩, rfl⟩
theorem loose_op {x : Op} : Loose (tk x.token) := by
  cases x with
  | bin o => cases o <;> exact ⟨⟨nofun, rfl, trivial⟩, rfl⟩
  | log o => cases o <;> exact ⟨⟨nofun, rfl, trivial⟩, rfl⟩
theorem loose_un {x : UnaryOperator} : Loose (tk (unaryToken x)) := by
  cases x <;> exact ⟨⟨nofun, rfl, trivial⟩, rfl⟩
theorem loose_bool {b : Bool} : Loose (tk (.boolean b)) := ⟨⟨nofun, rfl, trivial⟩, rfl⟩

theorem loose_word {w : Txt} : Loose (word w) := by
  refine ⟨?_, rfl⟩
  unfold PcOk word wordToken
  dsimp only
  split
  · exact ⟨nofun, rfl, trivial⟩
  · split
    · exact ⟨nofun, rfl, trivial⟩
    · split
      · exact ⟨nofun, rfl, trivial⟩
      · split <;> exact ⟨nofun, rfl, trivial⟩

/-- After `async`. -/
theorem fine_async {r : Out} (h : Fine r)
    (h' : ∀ l, r = some l → ∃ x l', l = x :: l' ∧ visibleName x.text = true) :
    Fine (lit [async] +++ r) := by
  intro l hl
  cases r with
  | none => cases hl
  | some m =>
    cases hl
    obtain ⟨x, l', rfl, hx⟩ := h' _ rfl
    obtain ⟨h1, h2⟩ := h _ rfl
    refine ⟨?_, fun _ => hx, h2⟩
    simp only [List.cons_append, List.nil_append]
    rw [List.forall_mem_cons]
    exact ⟨⟨nofun, rfl, trivial⟩, h1⟩

theorem fine_map {r : Out} {f : List Pc → List Pc} (h : Fine r)
    (hf : ∀ l, Fine (some l) → Fine (some (f l))) : Fine (r.map f) := by
  cases r with
  | none => exact fine_none
  | some l => exact hf _ h

theorem fine_paren {l : List Pc} (h : Fine (some l)) : Fine (some (paren l)) :=
  fine_cat (a := lit [p .openParen]) (fine_lit (by simp [loose_p]))
    (fine_cat h (fine_lit (l := [p .closeParen]) (by simp [loose_p])))

theorem fine_sub {n e} {r : Out} (h : Fine r) : Fine (sub n e r) :=
  fine_only fun _ => fine_map h fun l hl => by
    split
    · exact hl
    · exact fine_paren hl

theorem fine_shield {bad} {r : Out} (h : Fine r) : Fine (shield bad r) :=
  fine_map h fun l hl => by
    split
    · exact fine_paren hl
    · exact hl

theorem fine_glue {r : Out} (h : Fine r) : Fine (r.map glue) :=
  fine_map h fun l hl => by
    cases l with
    | nil => exact hl
    | cons x l =>
      rintro _ ⟨⟩
      obtain ⟨h1, h2⟩ := hl _ rfl
      refine ⟨?_, ?_⟩
      · rw [List.forall_mem_cons] at h1
        exact List.forall_mem_cons.2 h1
      · cases l with
        | nil => exact h2
        | cons => exact h2

theorem fine_obj {e} {r : Out} (h : Fine r) : Fine (obj e r) := by
  unfold obj; split
  · exact h
  · exact fine_sub h
theorem fine_arg {e} {r : Out} (h : Fine r) : Fine (arg e r) := by
  unfold arg; split
  · exact h
  · exact fine_sub h

/-- Given pieces. -/
macro "pieces" : tactic => `(tactic| (
  apply fine_lit
  simp only [List.forall_mem_cons, List.not_mem_nil, false_imp_iff, implies_true, and_true,
    loose_p, loose_k, loose_op, loose_un, loose_word, loose_bool]))

theorem fine_sep {α : Type} {l : List α} : Fine (sep l) := by
  unfold sep; split <;> pieces
theorem fine_name {n} : Fine (name n) := fine_only fun _ => by pieces
theorem fine_keyName {n} : Fine (keyName n) := fine_only fun _ => by pieces
theorem fine_str {n} : Fine (str n) := fine_only fun _ => fine_lit (by
  simp only [List.forall_mem_cons, List.not_mem_nil, false_imp_iff, implies_true, and_true]
  exact ⟨⟨nofun, rfl, trivial⟩, rfl⟩)
theorem fine_num {n} : Fine (num n) := fine_only fun _ => fine_lit (by
  simp only [List.forall_mem_cons, List.not_mem_nil, false_imp_iff, implies_true, and_true]
  exact ⟨⟨nofun, rfl, trivial⟩, rfl⟩)
theorem fine_optName {n} : Fine (optName n) := by
  cases n
  · pieces
  · exact fine_name
theorem fine_literal {l} : Fine (literal l) := by
  cases l with
  | null => exact fine_none
  | string => exact fine_str
  | number => exact fine_num
  | boolean => simp only [literal]; pieces
  | regex r =>
    refine fine_only fun h => fine_lit ?_
    simp only [List.forall_mem_cons, List.not_mem_nil, false_imp_iff, implies_true, and_true]
    exact ⟨⟨nofun, rfl, _, _, rfl, by simpa using h⟩, rfl⟩
theorem fine_shortKey {x} : Fine (shortKey x) := by
  unfold shortKey; split
  · exact fine_name
  · exact fine_none
theorem fine_star {g} : Fine (star g) := by
  unfold star; split <;> pieces
theorem fine_quasi {kind q} : Fine (quasi kind q) := by
  refine fine_only fun h => fine_lit ?_
  simp only [List.forall_mem_cons, List.not_mem_nil, false_imp_iff, implies_true, and_true]
  refine ⟨⟨nofun, rfl, ?_⟩, rfl⟩
  cases kind <;> exact ⟨_, (of_decide_eq_true h).1⟩
theorem fine_jumpLabel {l} : Fine (jumpLabel l) := by
  cases l
  · pieces
  · exact fine_glue fine_name
theorem fine_inParens {r : Out} (h : Fine r) : Fine (inParens r) :=
  fine_cat (by pieces) (fine_cat h (by pieces))
theorem fine_inBraces {r : Out} (h : Fine r) : Fine (inBraces r) :=
  fine_cat (by pieces) (fine_cat h (by pieces))
theorem fine_fnStart {a} : Fine (fnStart a) := by
  unfold fnStart
  split
  · exact fine_async (r := lit [k .function]) (by pieces) (by rintro _ ⟨⟩; exact ⟨_, _, rfl, rfl⟩)
  · pieces
theorem fine_asyncStar {v} : Fine (asyncStar v) := by
  unfold asyncStar
  split
  · refine fine_only fun _ => fine_lit ?_
    simp only [List.forall_mem_cons, List.not_mem_nil, false_imp_iff, implies_true, and_true]
    exact ⟨⟨nofun, rfl, trivial⟩, rfl⟩
  · exact fine_star
theorem fine_arrowHead {r r' : Out} {a ps} (h : Fine r) (h' : Fine r') :
    Fine (arrowHead r r' a ps) := by
  unfold arrowHead
  split
  · exact fine_only fun _ => fine_inParens h
  · refine fine_async (fine_only fun _ => fine_name) fun l hl => ?_
    simp only [only, name] at hl
    split at hl
    · next hv =>
      split at hl
      · cases hl; exact ⟨_, _, rfl, hv⟩
      · cases hl
    · cases hl
  · refine fine_async (fine_inParens h') fun l hl => ?_
    cases r' with
    | none => cases hl
    | some m => cases hl; exact ⟨_, _, rfl, rfl⟩
theorem fine_followed {x} {a b : Out} (ha : Fine a) (hb : Fine b) : Fine (followed x a b) :=
  fine_only fun _ => fine_cat ha hb

/-- Put together. -/
macro "fine" : tactic => `(tactic| repeat' first
  | assumption
  | with_reducible first
    | exact fine_none
    | exact fine_sep | exact fine_name | exact fine_keyName | exact fine_str | exact fine_num
    | exact fine_optName | exact fine_literal | exact fine_shortKey | exact fine_star
    | exact fine_quasi | exact fine_jumpLabel | exact fine_fnStart | exact fine_asyncStar
    | (apply fine_only; intro _)
    | apply fine_cat | apply fine_sub | apply fine_shield | apply fine_glue | apply fine_obj
    | apply fine_arg | apply fine_inParens | apply fine_inBraces | apply fine_followed
    | apply fine_arrowHead
  | pieces)

theorem fine_importSpec {s} : Fine (importSpec s) := by
  unfold importSpec; split <;> fine
theorem fine_importSeq {l} : Fine (importSeq l) := by
  induction l with
  | nil => unfold importSeq; fine
  | cons s l ih => unfold importSeq; have := @fine_importSpec s; fine
theorem fine_namedImports {l} : Fine (namedImports l) := by
  have := @fine_importSeq l; unfold namedImports; fine
theorem fine_nsImport {l} : Fine (nsImport l) := by unfold nsImport; fine
theorem fine_imports {l} : Fine (imports l) := by
  unfold imports
  split
  · exact fine_nsImport
  · fine
  · refine fine_cat fine_name (fine_cat ?_ fine_nsImport); fine
  · refine fine_cat fine_name (fine_cat ?_ fine_namedImports); fine
  · exact fine_namedImports
theorem fine_importDecl {x} : Fine (importDecl x) := by
  unfold importDecl
  split
  · fine
  · next l _ _ => have := @fine_imports l; fine
theorem fine_exportSpec {s} : Fine (exportSpec s) := by
  unfold exportSpec; split <;> fine
theorem fine_exportSeq {l} : Fine (exportSeq l) := by
  induction l with
  | nil => unfold exportSeq; fine
  | cons s l ih => unfold exportSeq; have := @fine_exportSpec s; fine
theorem fine_fromModule {m} : Fine (fromModule m) := by
  unfold fromModule; split <;> fine

mutual

theorem expr_fine : ∀ (e : Expr) (Γ : Env), Fine (expr Γ e)
  | .array l, Γ => by have := elems_fine l Γ; simp only [expr]; fine
  | .arrowBlock ps b _ _ _, Γ => by
      have := arrows_fine ps Γ; have := arrowArgs_fine ps Γ; have := parts_fine b Γ.body true; simp only [expr]; fine
  | .arrowExpr ps e _ _ _, Γ => by
      have := arrows_fine ps Γ; have := arrowArgs_fine ps Γ; have := expr_fine e Γ; simp only [expr]; fine
  | .arrowParamPlaceHolder _ _, _ => fine_none
  | .assignment _ l r, Γ => by
      have := expr_fine l Γ; have := expr_fine r Γ; simp only [expr]; fine
  | .await e, Γ => by have := expr_fine e Γ; simp only [expr]; fine
  | .binary op l r, Γ => by
      have := expr_fine l Γ; have := expr_fine r Γ; simp only [expr]; fine
  | .logical _ l r, Γ => by
      have := expr_fine l Γ; have := expr_fine r Γ; simp only [expr]; fine
  | .call c l, Γ => by have := expr_fine c Γ; have := args_fine l Γ; simp only [expr]; fine
  | .class c, Γ => by simp only [expr]; exact cls_fine c Γ true
  | .conditional t b a, Γ => by
      have := expr_fine t Γ; have := expr_fine a Γ; have := expr_fine b Γ; simp only [expr]; fine
  | .function f, Γ => by simp only [expr]; exact func_fine f Γ true
  | .ident _, _ => by simp only [expr]; fine
  | .literal _, _ => by simp only [expr]; fine
  | .template es qs, Γ => by simp only [expr]; exact tpl_fine es qs Γ
  | .member c x true, Γ => by
      have := expr_fine c Γ; have := expr_fine x Γ; simp only [expr]; fine
  | .member c x false, Γ => by
      have := expr_fine c Γ
      cases x <;> simp only [expr] <;> fine
  | .metaProperty _ _, _ => by simp only [expr]; fine
  | .new c l, Γ => by have := expr_fine c Γ; have := args_fine l Γ; simp only [expr]; fine
  | .object l, Γ => by have := props_fine l Γ; simp only [expr]; fine
  | .sequence [], _ => fine_none
  | .sequence (e :: l), Γ => by
      have := expr_fine e Γ; have := seq_fine l Γ; simp only [expr]; fine
  | .spread e, Γ => by have := expr_fine e Γ; simp only [expr]; fine
  | .super, _ => by simp only [expr]; fine
  | .taggedTemplate c es qs, Γ => by
      have := expr_fine c Γ; have := tpl_fine es qs Γ; simp only [expr]; fine
  | .this, _ => by simp only [expr]; fine
  | .unary _ e _, Γ => by have := expr_fine e Γ; simp only [expr]; fine
  | .update _ e true, Γ => by have := expr_fine e Γ; simp only [expr]; fine
  | .update _ e false, Γ => by
      have := expr_fine e Γ; simp only [expr]
      have : Fine (lit (glue [p (updatePunct ‹_›)])) := fine_glue (r := lit _) (by pieces)
      fine
  | .yield none b, Γ => by cases b <;> simp only [expr] <;> fine
  | .yield (some e) true, Γ => by
      have := expr_fine e Γ; simp only [expr]
      have : Fine (lit (k .yield :: glue [p .asterisk])) := fine_cat (a := lit [k .yield])
        (by pieces) (fine_glue (r := lit [p .asterisk]) (by pieces))
      fine
  | .yield (some e) false, Γ => by have := expr_fine e Γ; simp only [expr]; fine

theorem elems_fine : ∀ (l : List (Option Expr)) (Γ : Env), Fine (elems Γ l)
  | [], _ => by simp only [elems]; fine
  | none :: l, Γ => by have := elems_fine l Γ; simp only [elems]; fine
  | some e :: l, Γ => by have := expr_fine e Γ; have := elems_fine l Γ; simp only [elems]; fine

theorem args_fine : ∀ (l : List Expr) (Γ : Env), Fine (args Γ l)
  | [], _ => by simp only [args]; fine
  | e :: l, Γ => by have := expr_fine e Γ; have := args_fine l Γ; simp only [args]; fine

theorem seq_fine : ∀ (l : List Expr) (Γ : Env), Fine (seqTail Γ l)
  | [], _ => by simp only [seqTail]; fine
  | e :: l, Γ => by have := expr_fine e Γ; have := seq_fine l Γ; simp only [seqTail]; fine

theorem tpl_fine : ∀ (es : List Expr) (qs : List TemplateElement) (Γ : Env), Fine (template Γ es qs)
  | [], [], _ => fine_none
  | [], [_], _ => by simp only [template]; fine
  | [], _ :: _ :: _, _ => fine_none
  | _ :: _, [], _ => fine_none
  | e :: es, _ :: qs, Γ => by
      have := expr_fine e Γ; have := tail_fine es qs Γ; simp only [template]; fine

theorem tail_fine : ∀ (es : List Expr) (qs : List TemplateElement) (Γ : Env),
    Fine (templateTail Γ es qs)
  | [], [], _ => fine_none
  | [], [_], _ => by simp only [templateTail]; fine
  | [], _ :: _ :: _, _ => fine_none
  | _ :: _, [], _ => fine_none
  | e :: es, _ :: qs, Γ => by
      have := expr_fine e Γ; have := tail_fine es qs Γ; simp only [templateTail]; fine

theorem props_fine : ∀ (l : List ObjectProperty) (Γ : Env), Fine (props Γ l)
  | [], _ => by simp only [props]; fine
  | x :: l, Γ => by have := objProp_fine x Γ; have := props_fine l Γ; simp only [props]; fine

theorem objProp_fine : ∀ (x : ObjectProperty) (Γ : Env), Fine (objProp Γ x)
  | .spread e, Γ => by have := expr_fine e Γ; simp only [objProp]; fine
  | .property (.mk x v kind m c s), Γ => by
      have := key_fine x Γ c
      have := method_fine v Γ .init
      have := method_fine v Γ .get
      have := method_fine v Γ .set
      have := value_fine v Γ
      have := shortValue_fine v Γ
      cases kind <;> cases m <;> cases s <;> simp only [objProp] <;> fine

theorem shortValue_fine : ∀ (v : PropertyValue) (Γ : Env), Fine (shortValue Γ v)
  | .none, _ => by simp only [shortValue]; fine
  | .expr e, Γ => by have := expr_fine e Γ; simp only [shortValue]; fine
  | .pat _, _ => fine_none

theorem value_fine : ∀ (v : PropertyValue) (Γ : Env), Fine (value Γ v)
  | .none, _ => fine_none
  | .expr e, Γ => by have := expr_fine e Γ; simp only [value]; fine
  | .pat _, _ => fine_none

theorem key_fine : ∀ (x : PropertyKey) (Γ : Env) (c : Bool), Fine (key Γ c x)
  | .literal l, _, c => by cases c <;> cases l <;> simp only [key] <;> fine
  | .expr e, Γ, true => by have := expr_fine e Γ; simp only [key]; fine
  | .expr e, _, false => by cases e <;> simp only [key] <;> fine
  | .pat _, _, c => by cases c <;> exact fine_none

theorem method_fine : ∀ (v : PropertyValue) (Γ : Env) (kind : PropertyKind),
    Fine (method Γ kind v)
  | .none, _, _ => fine_none
  | .pat _, _, _ => fine_none
  | .expr (.function (.mk id ps b g a)), Γ, kind => by
      have := params_fine ps (paramEnv Γ kind g a)
      have := parts_fine b (bodyEnv Γ kind a).body true
      cases id <;> simp only [method] <;> fine
  | .expr (.ident _), _, _ | .expr (.array _), _, _ | .expr (.arrowBlock ..), _, _
  | .expr (.arrowExpr ..), _, _ | .expr (.arrowParamPlaceHolder ..), _, _ | .expr (.assignment ..), _, _
  | .expr (.await _), _, _ | .expr (.binary ..), _, _ | .expr (.logical ..), _, _ | .expr (.call ..), _, _
  | .expr (.class _), _, _ | .expr (.conditional ..), _, _
  | .expr (.literal _), _, _ | .expr (.template ..), _, _ | .expr (.member ..), _, _
  | .expr (.metaProperty ..), _, _ | .expr (.new ..), _, _ | .expr (.object _), _, _
  | .expr (.sequence _), _, _ | .expr (.spread _), _, _ | .expr .super, _, _
  | .expr (.taggedTemplate ..), _, _ | .expr .this, _, _ | .expr (.unary ..), _, _
  | .expr (.update ..), _, _ | .expr (.yield ..), _, _ => fine_none

theorem params_fine : ∀ (l : List FunctionArg) (Γ : Env), Fine (paramSeq Γ l)
  | [], _ => by simp only [paramSeq]; fine
  | .pat q :: l, Γ => by have := pat_fine q Γ; have := params_fine l Γ; simp only [paramSeq]; fine
  | .expr _ :: _, _ => fine_none

theorem arrows_fine : ∀ (l : List FunctionArg) (Γ : Env), Fine (arrowSeq Γ l)
  | [], _ => by simp only [arrowSeq]; fine
  | .pat q :: l, Γ => by have := pat_fine q Γ; have := arrows_fine l Γ; simp only [arrowSeq]; fine
  | .expr e :: l, Γ => by have := expr_fine e Γ; have := arrows_fine l Γ; simp only [arrowSeq]; fine

theorem arrowArgs_fine : ∀ (l : List FunctionArg) (Γ : Env), Fine (arrowArgs Γ l)
  | [], _ => by simp only [arrowArgs]; fine
  | .pat _ :: _, _ => fine_none
  | .expr e :: l, Γ => by
      have := expr_fine e Γ; have := arrowArgs_fine l Γ; simp only [arrowArgs]; fine

theorem func_fine : ∀ (f : Function) (Γ : Env) (b : Bool), Fine (func Γ b f)
  | .mk _ ps b g a, Γ, _ => by
      have := params_fine ps (Γ.fn a g); have := parts_fine b (Γ.fn a g).body true
      simp only [func]; fine

theorem cls_fine : ∀ (c : Class) (Γ : Env) (b : Bool), Fine (cls Γ b c)
  | .mk _ none b, Γ, _ => by have := classEls_fine b Γ.strictly false; simp only [cls]; fine
  | .mk (some _) (some e) b, Γ, _ => by
      have := expr_fine e Γ.strictly; have := classEls_fine b Γ.strictly false
      simp only [cls]; fine
  | .mk none (some _) _, _, _ => fine_none

theorem classEls_fine : ∀ (l : List Property) (Γ : Env) (c : Bool), Fine (classEls Γ c l)
  | [], _, _ => by simp only [classEls]; fine
  | .mk x v kind m c s :: l, Γ, b => by
      have := key_fine x Γ c
      have := key_fine x Γ false
      have := method_fine v Γ .init
      have := method_fine v Γ .get
      have := method_fine v Γ .set
      have := classEls_fine l Γ b
      have := classEls_fine l Γ true
      cases kind <;> cases m <;> cases c <;> cases s <;> simp only [classEls] <;> fine

theorem pat_fine : ∀ (q : Pat) (Γ : Env), Fine (pat Γ q)
  | .identifier _, _ => by simp only [pat]; fine
  | .array l, Γ => by have := patElems_fine l Γ; simp only [pat]; fine
  | .object l, Γ => by have := patProps_fine l Γ; simp only [pat]; fine
  | .restElement q, Γ => by have := pat_fine q Γ; simp only [pat]; fine
  | .assignment q e, Γ => by 
      have := pat_fine q Γ; have := expr_fine e (Γ.yielding false); simp only [pat]; fine

theorem patElems_fine : ∀ (l : List (Option ArrayPatPart)) (Γ : Env), Fine (patElems Γ l)
  | [], _ => by simp only [patElems]; fine
  | none :: l, Γ => by have := patElems_fine l Γ; simp only [patElems]; fine
  | some (.pat q) :: l, Γ => by
      have := pat_fine q Γ; have := patElems_fine l Γ; simp only [patElems]; fine
  | some (.expr _) :: _, _ => fine_none

theorem patProps_fine : ∀ (l : List ObjectPatPart) (Γ : Env), Fine (patProps Γ l)
  | [], _ => by simp only [patProps]; fine
  | x :: l, Γ => by have := patProp_fine x Γ; have := patProps_fine l Γ; simp only [patProps]; fine

theorem patProp_fine : ∀ (x : ObjectPatPart) (Γ : Env), Fine (patProp Γ x)
  | .rest q, Γ => by have := pat_fine q Γ; simp only [patProp]; fine
  | .assignment (.mk x v kind m c s), Γ => by
      have := key_fine x Γ c
      have := patInit_fine v Γ
      have := patValue_fine v Γ
      cases kind <;> cases m <;> cases s <;> simp only [patProp] <;> fine

theorem patInit_fine : ∀ (v : PropertyValue) (Γ : Env), Fine (patInit Γ v)
  | .none, _ => by simp only [patInit]; fine
  | .expr e, Γ => by have := expr_fine e Γ; simp only [patInit]; fine
  | .pat _, _ => fine_none

theorem patValue_fine : ∀ (v : PropertyValue) (Γ : Env), Fine (patValue Γ v)
  | .none, _ => fine_none
  | .pat q, Γ => by have := pat_fine q Γ; simp only [patValue]; fine
  | .expr _, _ => fine_none

theorem varDecl_fine : ∀ (d : VariableDecl) (Γ : Env) (n : Nat) (kind : VariableKind) (f g : Bool),
    Fine (varDecl Γ n kind f g d)
  | .mk q none, Γ, _, _, _, _ => by have := pat_fine q Γ; simp only [varDecl]; fine
  | .mk q (some e), Γ, _, _, _, _ => by
      have := pat_fine q Γ; have := expr_fine e Γ; simp only [varDecl]; fine

theorem varDecls_fine : ∀ (l : List VariableDecl) (Γ : Env) (n : Nat) (kind : VariableKind)
    (f : Bool), Fine (varDecls Γ n kind f l)
  | [], _, _, _, _ => by simp only [varDecls]; fine
  | d :: l, Γ, n, kind, f => by
      have := varDecl_fine d Γ n kind f false; have := varDecls_fine l Γ n kind f
      simp only [varDecls]; fine

theorem stmt_fine : ∀ (s : Stmt) (Γ : Env), Fine (stmt Γ s)
  | .expr e, Γ => by have := expr_fine e Γ; simp only [stmt]; fine
  | .block l, Γ => by have := parts_fine l Γ false; simp only [stmt]; fine
  | .empty, _ => by simp only [stmt]; fine
  | .debugger, _ => by simp only [stmt]; fine
  | .with e s, Γ => by have := expr_fine e Γ; have := stmt_fine s Γ; simp only [stmt]; fine
  | .return none, _ => by simp only [stmt]; fine
  | .return (some e), Γ => by have := expr_fine e Γ; simp only [stmt]; fine
  | .labeled n s, Γ => by have := stmt_fine s (Γ.label n); simp only [stmt]; fine
  | .break _, _ => by simp only [stmt]; fine
  | .continue _, _ => by simp only [stmt]; fine
  | .if e s none, Γ => by have := expr_fine e Γ; have := stmt_fine s Γ; simp only [stmt]; fine
  | .if e s (some s'), Γ => by
      have := expr_fine e Γ; have := stmt_fine s Γ; have := stmt_fine s' Γ; simp only [stmt]; fine
  | .switch e l, Γ => by have := expr_fine e Γ; have := cases_fine l Γ; simp only [stmt]; fine
  | .throw e, Γ => by have := expr_fine e Γ; simp only [stmt]; fine
  | .try l x f, Γ => by
      have := parts_fine l Γ false; have := handler_fine x Γ; have := finalizer_fine f Γ
      simp only [stmt]; fine
  | .while e s, Γ => by have := expr_fine e Γ; have := stmt_fine s Γ; simp only [stmt]; fine
  | .doWhile e s, Γ => by have := expr_fine e Γ; have := stmt_fine s Γ; simp only [stmt]; fine
  | .for x a b s, Γ => by
      have := init_fine x Γ; have := opt_fine a Γ; have := opt_fine b Γ; have := stmt_fine s Γ
      simp only [stmt]; fine
  | .forIn x e s, Γ => by
      have := left_fine x Γ; have := expr_fine e Γ; have := stmt_fine s Γ; simp only [stmt]; fine
  | .forOf x e s a, Γ => by
      have := left_fine x Γ; have := expr_fine e Γ; have := stmt_fine s Γ
      cases a <;> simp only [stmt, Bool.false_eq_true, if_true, if_false] <;> fine
  | .var l, Γ => by have := varDecls_fine l Γ 1 .var false; simp only [stmt]; fine

theorem cases_fine : ∀ (l : List SwitchCase) (Γ : Env), Fine (cases Γ l)
  | [], _ => by simp only [cases]; fine
  | .mk none l :: cs, Γ => by
      have := parts_fine l Γ false; have := cases_fine cs Γ; simp only [cases]; fine
  | .mk (some e) l :: cs, Γ => by
      have := expr_fine e Γ; have := parts_fine l Γ false; have := cases_fine cs Γ
      simp only [cases]; fine

theorem handler_fine : ∀ (x : Option CatchClause) (Γ : Env), Fine (handler Γ x)
  | none, _ => by simp only [handler]; fine
  | some (.mk none l), Γ => by have := parts_fine l Γ false; simp only [handler]; fine
  | some (.mk (some q) l), Γ => by
      have := pat_fine q Γ; have := parts_fine l Γ false; simp only [handler]; fine

theorem finalizer_fine : ∀ (x : Option (List ProgramPart)) (Γ : Env), Fine (finalizer Γ x)
  | none, _ => by simp only [finalizer]; fine
  | some l, Γ => by have := parts_fine l Γ false; simp only [finalizer]; fine

theorem init_fine : ∀ (x : Option LoopInit) (Γ : Env), Fine (loopInit Γ x)
  | none, _ => by simp only [loopInit]; fine
  | some (.variable kind l), Γ => by
      have := varDecls_fine l Γ 20 kind true; simp only [loopInit]; fine
  | some (.expr e), Γ => by have := expr_fine e Γ; simp only [loopInit]; fine

theorem left_fine : ∀ (x : LoopLeft) (Γ : Env), Fine (loopLeft Γ x)
  | .variable kind d, Γ => by
      have := varDecl_fine d Γ 20 kind true true; simp only [loopLeft]; fine
  | .expr e, Γ => by have := expr_fine e Γ; simp only [loopLeft]; fine

theorem opt_fine : ∀ (x : Option Expr) (Γ : Env), Fine (optExpr Γ x)
  | none, _ => by simp only [optExpr]; fine
  | some e, Γ => by have := expr_fine e Γ; simp only [optExpr]; fine

theorem decl_fine : ∀ (d : Decl) (Γ : Env), Fine (decl Γ d)
  | .variable kind l, Γ => by have := varDecls_fine l Γ 1 kind false; simp only [decl]; fine
  | .function f, Γ => by simp only [decl]; exact func_fine f Γ false
  | .class c, Γ => by simp only [decl]; exact cls_fine c Γ true
  | .import _, _ => by simp only [decl]; exact fine_importDecl
  | .export e, Γ => by have := export_fine e Γ; simp only [decl]; fine

theorem export_fine : ∀ (e : ModExport) (Γ : Env), Fine (modExport Γ e)
  | .defaultDecl d, Γ => by have := decl_fine d Γ; simp only [modExport]; fine
  | .defaultExpr e, Γ => by have := expr_fine e Γ; simp only [modExport]; fine
  | .namedDecl d, Γ => by
      have := decl_fine d Γ; simp only [modExport]; split <;> fine
  | .namedSpecifier l m, _ => by
      have := @fine_exportSeq l; have := @fine_fromModule m; simp only [modExport]; fine
  | .all _, _ => by simp only [modExport]; fine

theorem parts_fine : ∀ (l : List ProgramPart) (Γ : Env) (pro : Bool), Fine (parts Γ pro l)
  | [], _, _ => by simp only [parts]; fine
  | x :: l, Γ, pro => by
      have := part_fine x Γ pro; have := parts_fine l Γ (pro && isDirPart x); simp only [parts]; fine

theorem part_fine : ∀ (x : ProgramPart) (Γ : Env) (pro : Bool), Fine (part Γ pro x)
  | .dir _ _, _, _ => by simp only [part]; fine
  | .decl d, Γ, _ => by have := decl_fine d Γ; simp only [part]; fine
  | .stmt s, Γ, _ => by have := stmt_fine s Γ; simp only [part]; fine

end

end Ressa.Print
