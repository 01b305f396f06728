import Verif.Proof.PrintProg

/-!
# Every printed tree reads back

One recursion over the tree; each case is one of the lemmas of the files `Print*`.
-/

namespace Ressa.Print
open Ressa.Gr

variable {C : Cfg}

theorem paramEnv_in {Γ : Env} {kind g a} (h : Γ.allowIn = true) :
    (paramEnv Γ kind g a).allowIn = true := by
  unfold paramEnv
  repeat' split
  all_goals exact h

theorem bodyEnv_in {Γ : Env} {kind a} (h : Γ.allowIn = true) :
    (bodyEnv Γ kind a).allowIn = true := by
  unfold bodyEnv
  repeat' split
  all_goals exact h

mutual

theorem expr_all (hx : ExtOk C.ext) : ∀ (e : Expr) (Γ : Env), Γ.allowIn = true → ExprOk C Γ e
  | .array l, Γ, h => expr_array h (elems_all hx l Γ h)
  | .arrowBlock ps b _ _ _, Γ, h => expr_arrowBlock h (arrows_all hx ps Γ h)
      (arrowArgs_all hx ps Γ h) (body_ok h (parts_all hx b Γ.body h))
  | .arrowExpr ps e _ _ _, Γ, h => expr_arrowExpr h (arrows_all hx ps Γ h)
      (arrowArgs_all hx ps Γ h) (expr_all hx e Γ h)
  | .arrowParamPlaceHolder _ _, _, _ => expr_none rfl
  | .assignment _ l r, Γ, h => expr_assignment h (expr_all hx l Γ h) (expr_all hx r Γ h)
  | .await e, Γ, h => expr_await h (expr_all hx e Γ h)
  | .binary op l r, Γ, h => if hop : op = .powerOf then
        hop ▸ expr_power h (expr_all hx l Γ h) (expr_all hx r Γ h)
      else expr_binary hop h (expr_all hx l Γ h) (expr_all hx r Γ h)
  | .logical _ l r, Γ, h => expr_logical h (expr_all hx l Γ h) (expr_all hx r Γ h)
  | .call c l, Γ, h => expr_call h (expr_all hx c Γ h) (args_all hx l Γ h)
  | .class c, Γ, h => expr_class hx h (cls_all hx c Γ h)
  | .conditional t b a, Γ, h => expr_conditional h (expr_all hx t Γ h) (expr_all hx a Γ h)
      (expr_all hx b Γ h)
  | .function f, Γ, h => expr_function hx h (func_all hx f Γ h)
  | .ident _, _, h => expr_ident h
  | .literal _, _, h => expr_literal h
  | .template es qs, Γ, h => expr_template h (tpl_all hx es qs Γ h)
  | .member c x true, Γ, h => expr_member_index h (expr_all hx c Γ h) (expr_all hx x Γ h)
  | .member c x false, Γ, h => match x with
      | .ident _ => expr_member_dot h (expr_all hx c Γ h)
      | .array _ | .arrowBlock .. | .arrowExpr .. | .arrowParamPlaceHolder .. | .assignment ..
      | .await _ | .binary .. | .logical .. | .call .. | .class _ | .conditional .. | .function _
      | .literal _ | .template .. | .member .. | .metaProperty .. | .new .. | .object _
      | .sequence _ | .spread _ | .super | .taggedTemplate .. | .this | .unary .. | .update ..
      | .yield .. => expr_none rfl
  | .metaProperty _ _, _, _ => expr_meta
  | .new c l, Γ, h => expr_new h (expr_all hx c Γ h) (args_all hx l Γ h)
  | .object l, Γ, h => expr_object h (props_all hx l Γ h)
  | .sequence [], _, _ => expr_none rfl
  | .sequence (e :: l), Γ, h => expr_sequence h (expr_all hx e Γ h) (seq_all hx l Γ h)
  | .spread e, Γ, h => expr_spread h (expr_all hx e Γ h)
  | .super, _, _ => expr_super
  | .taggedTemplate c es qs, Γ, h => expr_tagged h (expr_all hx c Γ h) (tpl_all hx es qs Γ h)
  | .this, _, h => expr_this hx h
  | .unary _ e _, Γ, h => expr_unary h (expr_all hx e Γ h)
  | .update _ e true, Γ, h => expr_prefix h (expr_all hx e Γ h)
  | .update _ e false, Γ, h => expr_postfix h (expr_all hx e Γ h)
  | .yield none _, _, _ => expr_yield_none
  | .yield (some e) false, Γ, h => expr_yield_some h (expr_all hx e Γ h)
  | .yield (some e) true, Γ, h => expr_yield_all h (expr_all hx e Γ h)

theorem elems_all (hx : ExtOk C.ext) : ∀ (l : List (Option Expr)) (Γ : Env), Γ.allowIn = true →
    ElemsOk C Γ l
  | [], _, _ => elems_nil
  | none :: l, Γ, h => elems_none (elems_all hx l Γ h)
  | some e :: l, Γ, h => elems_some h (expr_all hx e Γ h) (elems_all hx l Γ h)

theorem args_all (hx : ExtOk C.ext) : ∀ (l : List Expr) (Γ : Env), Γ.allowIn = true → ArgsOk C Γ l
  | [], _, _ => args_nil
  | e :: l, Γ, h => args_cons h (expr_all hx e Γ h) (args_all hx l Γ h)

theorem seq_all (hx : ExtOk C.ext) : ∀ (l : List Expr) (Γ : Env), Γ.allowIn = true → SeqOk C Γ l
  | [], _, _ => seq_nil
  | e :: l, Γ, h => seq_cons h (expr_all hx e Γ h) (seq_all hx l Γ h)

theorem tpl_all (hx : ExtOk C.ext) : ∀ (es : List Expr) (qs : List TemplateElement) (Γ : Env),
    Γ.allowIn = true → TplOk C Γ es qs
  | [], [], _, _ => tpl_none rfl
  | [], [_], _, _ => tpl_plain
  | [], _ :: _ :: _, _, _ => tpl_none rfl
  | _ :: _, [], _, _ => tpl_none rfl
  | e :: es, _ :: qs, Γ, h => tpl_more h (expr_all hx e Γ h) (tail_all hx es qs Γ h)

theorem tail_all (hx : ExtOk C.ext) : ∀ (es : List Expr) (qs : List TemplateElement) (Γ : Env),
    Γ.allowIn = true → TplTailOk C Γ es qs
  | [], [], _, _ => tail_none rfl
  | [], [_], _, _ => tail_last
  | [], _ :: _ :: _, _, _ => tail_none rfl
  | _ :: _, [], _, _ => tail_none rfl
  | e :: es, _ :: qs, Γ, h => tail_more h (expr_all hx e Γ h) (tail_all hx es qs Γ h)

theorem props_all (hx : ExtOk C.ext) : ∀ (l : List ObjectProperty) (Γ : Env), Γ.allowIn = true →
    PropsOk C Γ l
  | [], _, _ => props_nil
  | x :: l, Γ, h => props_cons (objProp_all hx x Γ h) (props_all hx l Γ h)

theorem objProp_all (hx : ExtOk C.ext) : ∀ (x : ObjectProperty) (Γ : Env), Γ.allowIn = true →
    ObjPropOk C Γ x
  | .spread e, Γ, h => objProp_spread h (expr_all hx e Γ h)
  | .property (.mk _ v .init false _ true), Γ, h => objProp_short h (value_all hx v Γ h).1
  | .property (.mk x v .init false c false), Γ, h => objProp_init h (key_all hx x Γ h c)
      (value_all hx v Γ h).1
  | .property (.mk x v .init true c false), Γ, h => objProp_method h (key_all hx x Γ h c)
      ((value_all hx v Γ h).2.2 _)
  | .property (.mk x v .get false c false), Γ, h => objProp_get h (key_all hx x Γ h c)
      ((value_all hx v Γ h).2.2 _)
  | .property (.mk x v .set false c false), Γ, h => objProp_set h (key_all hx x Γ h c)
      ((value_all hx v Γ h).2.2 _)
  | .property (.mk _ _ .init true _ true), _, _ => objProp_none rfl
  | .property (.mk _ _ .get true _ _), _, _ => objProp_none rfl
  | .property (.mk _ _ .get false _ true), _, _ => objProp_none rfl
  | .property (.mk _ _ .set true _ _), _, _ => objProp_none rfl
  | .property (.mk _ _ .set false _ true), _, _ => objProp_none rfl
  | .property (.mk _ _ .ctor _ _ _), _, _ => objProp_none rfl
  | .property (.mk _ _ .method _ _ _), _, _ => objProp_none rfl

theorem key_all (hx : ExtOk C.ext) : ∀ (x : PropertyKey) (Γ : Env), Γ.allowIn = true →
    ∀ c, KeyOk C Γ c x
  | .literal _, _, h => fun c => match c with
      | true => key_computed_literal h
      | false => key_literal hx
  | .expr e, Γ, h =>
      have ih := expr_all hx e Γ h
      fun c => match c, e, ih with
      | true, _, ih => key_computed h ih
      | false, .ident _, _ => key_ident hx
      | false, .array _, _ | false, .arrowBlock .., _ | false, .arrowExpr .., _
      | false, .arrowParamPlaceHolder .., _ | false, .assignment .., _
      | false, .await _, _ | false, .binary .., _ | false, .logical .., _ | false, .call .., _
      | false, .class _, _ | false, .conditional .., _ | false, .function _, _
      | false, .literal _, _ | false, .template .., _ | false, .member .., _
      | false, .metaProperty .., _ | false, .new .., _ | false, .object _, _
      | false, .sequence _, _ | false, .spread _, _ | false, .super, _
      | false, .taggedTemplate .., _ | false, .this, _ | false, .unary .., _
      | false, .update .., _ | false, .yield .., _ => key_none rfl
  | .pat _, _, _ => fun c => by cases c <;> exact key_none rfl

theorem value_all (hx : ExtOk C.ext) : ∀ (v : PropertyValue) (Γ : Env), Γ.allowIn = true →
    (∀ e, v = .expr e → ExprOk C Γ e) ∧ (∀ q, v = .pat q → PatOk C Γ q) ∧
      ∀ kind, MethodOk C Γ kind v
  | .none, _, _ => ⟨by simp, by simp, fun _ => method_none rfl⟩
  | .pat q, Γ, h => ⟨by simp, fun _ e => (PropertyValue.pat.inj e) ▸ pat_all hx q Γ h,
      fun _ => method_none rfl⟩
  | .expr e, Γ, h => ⟨fun _ e' => (PropertyValue.expr.inj e') ▸ expr_all hx e Γ h, by simp,
      match e with
      | .function (.mk none ps b g a) => fun kind =>
          method_fn (params_all hx ps (paramEnv Γ kind g a) (paramEnv_in h))
            (body_ok (bodyEnv_in h) (parts_all hx b (bodyEnv Γ kind a).body (bodyEnv_in h)))
      | .function (.mk (some _) _ _ _ _) => fun _ => method_none rfl
      | .ident _
      | .array _ | .arrowBlock .. | .arrowExpr .. | .arrowParamPlaceHolder .. | .assignment ..
      | .await _ | .binary .. | .logical .. | .call .. | .class _ | .conditional ..
      | .literal _ | .template .. | .member .. | .metaProperty .. | .new .. | .object _
      | .sequence _ | .spread _ | .super | .taggedTemplate .. | .this | .unary .. | .update ..
      | .yield .. => fun _ => method_none rfl⟩

theorem params_all (hx : ExtOk C.ext) : ∀ (l : List FunctionArg) (Γ : Env), Γ.allowIn = true →
    ParamsOk C Γ l
  | [], _, _ => params_nil
  | .pat q :: l, Γ, h => params_pat h (pat_all hx q Γ h) (params_all hx l Γ h)
  | .expr _ :: _, _, _ => params_expr

theorem arrows_all (hx : ExtOk C.ext) : ∀ (l : List FunctionArg) (Γ : Env), Γ.allowIn = true →
    ArrowSeqOk C Γ l
  | [], _, _ => arrowSeq_nil
  | .pat q :: _, Γ, h => arrowSeq_pat h (pat_all hx q Γ h)
  | .expr e :: l, Γ, h => arrowSeq_expr h (expr_all hx e Γ h) (arrows_all hx l Γ h)

theorem arrowArgs_all (hx : ExtOk C.ext) : ∀ (l : List FunctionArg) (Γ : Env),
    Γ.allowIn = true → ArrowArgsOk C Γ l
  | [], _, _ => arrowArgs_nil
  | .pat _ :: _, _, _ => arrowArgs_pat
  | .expr e :: l, Γ, h => arrowArgs_expr h (expr_all hx e Γ h) (arrowArgs_all hx l Γ h)

theorem func_all (hx : ExtOk C.ext) : ∀ (f : Function) (Γ : Env), Γ.allowIn = true → FuncOk C Γ f
  | .mk _ ps b g a, Γ, h => func_ok hx (params_all hx ps (Γ.fn a g) h)
      (body_ok h (parts_all hx b (Γ.fn a g).body h))

theorem cls_all (hx : ExtOk C.ext) : ∀ (c : Class) (Γ : Env), Γ.allowIn = true → ClsOk C Γ c
  | .mk _ none b, Γ, h => cls_none (classEls_all hx b Γ.strictly h)
  | .mk (some _) (some e) b, Γ, h => cls_some h (expr_all hx e Γ.strictly h)
      (classEls_all hx b Γ.strictly h)
  | .mk none (some _) _, _, _ => cls_bad

theorem classEls_all (hx : ExtOk C.ext) : ∀ (l : List Property) (Γ : Env), Γ.allowIn = true →
    ClassElsOk C Γ l
  | [], _, _ => classEls_nil
  | .mk x v .ctor true false false :: l, Γ, h => classEls_ctor hx h (key_all hx x Γ h false)
      ((value_all hx v Γ h).2.2 _) (classEls_all hx l Γ h)
  | .mk x v .method true c false :: l, Γ, h => classEls_method hx h (key_all hx x Γ h c)
      ((value_all hx v Γ h).2.2 _) (classEls_all hx l Γ h)
  | .mk x v .get false c false :: l, Γ, h => classEls_get h (key_all hx x Γ h c)
      ((value_all hx v Γ h).2.2 _) (classEls_all hx l Γ h)
  | .mk x v .set false c false :: l, Γ, h => classEls_set h (key_all hx x Γ h c)
      ((value_all hx v Γ h).2.2 _) (classEls_all hx l Γ h)
  | .mk _ _ .init _ _ _ :: _, _, _ => classEls_none fun _ => rfl
  | .mk _ _ .ctor false _ _ :: _, _, _ => classEls_none fun _ => rfl
  | .mk _ _ .ctor true true _ :: _, _, _ => classEls_none fun _ => rfl
  | .mk _ _ .ctor true false true :: _, _, _ => classEls_none fun _ => rfl
  | .mk _ _ .method false _ _ :: _, _, _ => classEls_none fun _ => rfl
  | .mk _ _ .method true _ true :: _, _, _ => classEls_none fun _ => rfl
  | .mk _ _ .get true _ _ :: _, _, _ => classEls_none fun _ => rfl
  | .mk _ _ .get false _ true :: _, _, _ => classEls_none fun _ => rfl
  | .mk _ _ .set true _ _ :: _, _, _ => classEls_none fun _ => rfl
  | .mk _ _ .set false _ true :: _, _, _ => classEls_none fun _ => rfl

theorem pat_all (hx : ExtOk C.ext) : ∀ (q : Pat) (Γ : Env), Γ.allowIn = true → PatOk C Γ q
  | .identifier _, _, _ => pat_ident
  | .array l, Γ, h => pat_array (patElems_all hx l Γ h)
  | .object l, Γ, h => pat_object (patProps_all hx l Γ h)
  | .restElement q, Γ, h => pat_rest (pat_all hx q Γ h)
  | .assignment q e, Γ, h => pat_assignment h (pat_all hx q Γ h)
      (expr_all hx e (Γ.yielding false) h)

theorem patElems_all (hx : ExtOk C.ext) : ∀ (l : List (Option ArrayPatPart)) (Γ : Env),
    Γ.allowIn = true → PatElemsOk C Γ l
  | [], _, _ => patElems_nil
  | none :: l, Γ, h => patElems_none (patElems_all hx l Γ h)
  | some (.pat q) :: l, Γ, h => patElems_pat (pat_all hx q Γ h) (patElems_all hx l Γ h)
  | some (.expr _) :: _, _, _ => patElems_expr

theorem patProps_all (hx : ExtOk C.ext) : ∀ (l : List ObjectPatPart) (Γ : Env),
    Γ.allowIn = true → PatPropsOk C Γ l
  | [], _, _ => patProps_nil
  | x :: l, Γ, h => patProps_cons (patProp_all hx x Γ h) (patProps_all hx l Γ h)

theorem patProp_all (hx : ExtOk C.ext) : ∀ (x : ObjectPatPart) (Γ : Env), Γ.allowIn = true →
    PatPropOk C Γ x
  | .rest q, Γ, h => patProp_rest (pat_all hx q Γ h)
  | .assignment (.mk _ v .init false _ true), Γ, h => patProp_short h (value_all hx v Γ h).1
  | .assignment (.mk x v .init false c false), Γ, h => patProp_key (key_all hx x Γ h c)
      (value_all hx v Γ h).2.1
  | .assignment (.mk _ _ .init true _ _), _, _ => patProp_none rfl
  | .assignment (.mk _ _ .get _ _ _), _, _ => patProp_none rfl
  | .assignment (.mk _ _ .set _ _ _), _, _ => patProp_none rfl
  | .assignment (.mk _ _ .ctor _ _ _), _, _ => patProp_none rfl
  | .assignment (.mk _ _ .method _ _ _), _, _ => patProp_none rfl

theorem varDecl_all (hx : ExtOk C.ext) : ∀ (d : VariableDecl) (Γ : Env), Γ.allowIn = true →
    VarDeclOk C Γ d
  | .mk q none, Γ, h => pat_all hx q Γ h
  | .mk q (some e), Γ, h => ⟨pat_all hx q Γ h, expr_all hx e Γ h⟩

theorem varDecls_all (hx : ExtOk C.ext) : ∀ (l : List VariableDecl) (Γ : Env), Γ.allowIn = true →
    VarDeclsOk C Γ l
  | [], _, _ => fun _ h => absurd h (by simp)
  | d :: l, Γ, h => fun x hl => (List.mem_cons.1 hl).elim
      (fun e => e ▸ varDecl_all hx d Γ h) (fun h' => varDecls_all hx l Γ h x h')

theorem stmt_all (hx : ExtOk C.ext) : ∀ (s : Stmt) (Γ : Env), Γ.allowIn = true → StmtOk C Γ s
  | .expr e, Γ, h => stmt_expr h (expr_all hx e Γ h)
  | .block l, Γ, h => stmt_block (parts_all hx l Γ h)
  | .empty, _, _ => stmt_empty
  | .debugger, _, _ => stmt_debugger
  | .with e s, Γ, h => stmt_with h (expr_all hx e Γ h) (stmt_all hx s Γ h)
  | .return none, _, _ => stmt_return_none
  | .return (some e), Γ, h => stmt_return_some h (expr_all hx e Γ h)
  | .labeled n s, Γ, h => stmt_labeled h (stmt_all hx s (Γ.label n) h)
  | .break _, _, _ => stmt_break
  | .continue _, _, _ => stmt_continue
  | .if e s none, Γ, h => stmt_if h (expr_all hx e Γ h) (stmt_all hx s Γ h)
  | .if e s (some s'), Γ, h => stmt_ifElse h (expr_all hx e Γ h) (stmt_all hx s Γ h)
      (stmt_all hx s' Γ h)
  | .switch e l, Γ, h => stmt_switch h (expr_all hx e Γ h) (cases_all hx l Γ h)
  | .throw e, Γ, h => stmt_throw h (expr_all hx e Γ h)
  | .try l x f, Γ, h => stmt_try h (parts_all hx l Γ h) (handler_all hx x Γ h)
      (finalizer_all hx f Γ h)
  | .while e s, Γ, h => stmt_while h (expr_all hx e Γ h) (stmt_all hx s Γ h)
  | .doWhile e s, Γ, h => stmt_doWhile h (expr_all hx e Γ h) (stmt_all hx s Γ h)
  | .for x a b s, Γ, h => stmt_for h (init_all hx x Γ h) (opt_all hx a Γ h) (opt_all hx b Γ h)
      (stmt_all hx s Γ h)
  | .forIn x e s, Γ, h => stmt_forIn h (left_all hx x Γ h) (expr_all hx e Γ h) (stmt_all hx s Γ h)
  | .forOf x e s _, Γ, h => stmt_forOf h (left_all hx x Γ h) (expr_all hx e Γ h)
      (stmt_all hx s Γ h)
  | .var l, Γ, h => stmt_var h (varDecls_all hx l Γ h)

theorem cases_all (hx : ExtOk C.ext) : ∀ (l : List SwitchCase) (Γ : Env), Γ.allowIn = true →
    CasesOk C Γ l
  | [], _, _ => cases_nil
  | .mk none l :: cs, Γ, h => cases_default (parts_all hx l Γ h) (cases_all hx cs Γ h)
  | .mk (some e) l :: cs, Γ, h => cases_case h (expr_all hx e Γ h) (parts_all hx l Γ h)
      (cases_all hx cs Γ h)

theorem handler_all (hx : ExtOk C.ext) : ∀ (x : Option CatchClause) (Γ : Env), Γ.allowIn = true →
    HandlerOk C Γ x
  | none, _, _ => trivial
  | some (.mk none l), Γ, h => parts_all hx l Γ h
  | some (.mk (some q) l), Γ, h => ⟨pat_all hx q Γ h, parts_all hx l Γ h⟩

theorem finalizer_all (hx : ExtOk C.ext) : ∀ (x : Option (List ProgramPart)) (Γ : Env),
    Γ.allowIn = true → FinalizerOk C Γ x
  | none, _, _ => trivial
  | some l, Γ, h => parts_all hx l Γ h

theorem init_all (hx : ExtOk C.ext) : ∀ (x : Option LoopInit) (Γ : Env), Γ.allowIn = true →
    InitOk C Γ x
  | none, _, _ => trivial
  | some (.variable _ l), Γ, h => varDecls_all hx l Γ h
  | some (.expr e), Γ, h => expr_all hx e Γ h

theorem left_all (hx : ExtOk C.ext) : ∀ (x : LoopLeft) (Γ : Env), Γ.allowIn = true → LeftOk C Γ x
  | .variable _ d, Γ, h => varDecl_all hx d Γ h
  | .expr e, Γ, h => expr_all hx e Γ h

theorem opt_all (hx : ExtOk C.ext) : ∀ (x : Option Expr) (Γ : Env), Γ.allowIn = true → OptOk C Γ x
  | none, _, _ => trivial
  | some e, Γ, h => expr_all hx e Γ h

theorem decl_all (hx : ExtOk C.ext) : ∀ (d : Decl) (Γ : Env), Γ.allowIn = true → DeclOk C Γ d
  | .variable _ l, Γ, h => decl_variable h (varDecls_all hx l Γ h)
  | .function f, Γ, h => decl_function (func_all hx f Γ h)
  | .class c, Γ, h => decl_class (cls_all hx c Γ h)
  | .import _, _, _ => decl_import hx
  | .export e, Γ, h => decl_export (export_ok hx e Γ h)

theorem export_ok (hx : ExtOk C.ext) : ∀ (e : ModExport) (Γ : Env), Γ.allowIn = true →
    ModExportOk C Γ e
  | .defaultDecl d, Γ, h => export_defaultDecl (decl_all hx d Γ h)
  | .defaultExpr e, Γ, h => export_defaultExpr h (expr_all hx e Γ h)
  | .namedDecl d, Γ, h => export_namedDecl (decl_all hx d Γ h)
  | .namedSpecifier _ _, _, _ => export_named
  | .all _, _, _ => export_all

theorem parts_all (hx : ExtOk C.ext) : ∀ (l : List ProgramPart) (Γ : Env), Γ.allowIn = true →
    PartsOk C Γ l
  | [], _, _ => parts_nil
  | x :: l, Γ, h => parts_cons (part_all hx x Γ h) (parts_all hx l Γ h)

theorem part_all (hx : ExtOk C.ext) : ∀ (x : ProgramPart) (Γ : Env), Γ.allowIn = true →
    PartOk C Γ x
  | .dir _ _, _, _ => part_dir
  | .decl d, Γ, h => part_decl (decl_all hx d Γ h)
  | .stmt s, Γ, h => part_stmt (stmt_all hx s Γ h)

end

end Ressa.Print
