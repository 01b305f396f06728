import Verif.Spec.Rename
import Verif.Proof.RenAttr

/-!
# Computing with renamings
-/

namespace Ressa

@[ren_simp] theorem ren_Unit (ρ) (a : Unit) : ren ρ a = a := rfl
@[ren_simp] theorem ren_Bool (ρ) (a : Bool) : ren ρ a = a := rfl
@[ren_simp] theorem ren_Nat (ρ) (a : Nat) : ren ρ a = a := rfl
@[ren_simp] theorem ren_Empty (ρ) (a : Empty) : ren ρ a = a := rfl
@[ren_simp] theorem ren_VariableKind (ρ) (a : VariableKind) : ren ρ a = a := rfl
@[ren_simp] theorem ren_PropertyKind (ρ) (a : PropertyKind) : ren ρ a = a := rfl
@[ren_simp] theorem ren_AssignmentOperator (ρ) (a : AssignmentOperator) : ren ρ a = a := rfl
@[ren_simp] theorem ren_BinaryOperator (ρ) (a : BinaryOperator) : ren ρ a = a := rfl
@[ren_simp] theorem ren_LogicalOperator (ρ) (a : LogicalOperator) : ren ρ a = a := rfl
@[ren_simp] theorem ren_UnaryOperator (ρ) (a : UnaryOperator) : ren ρ a = a := rfl
@[ren_simp] theorem ren_UpdateOperator (ρ) (a : UpdateOperator) : ren ρ a = a := rfl
@[ren_simp] theorem ren_TemplateElement_mk (ρ a b c) :
    ren ρ (TemplateElement.mk a b c) = ⟨ρ a, innerText c (ρ a), c⟩ := rfl
@[ren_simp] theorem ren_TemplateElement_tail (ρ) (a : TemplateElement) :
    (ren ρ a).tail = a.tail := rfl
@[ren_simp] theorem ren_Literal_null (ρ) : ren ρ Literal.null = .null := rfl
@[ren_simp] theorem ren_Literal_string (ρ a) : ren ρ (Literal.string a) = .string (ρ a) := rfl
@[ren_simp] theorem ren_Literal_number (ρ a) : ren ρ (Literal.number a) = .number (ρ a) := rfl
@[ren_simp] theorem ren_Literal_boolean (ρ a) : ren ρ (Literal.boolean a) = .boolean a := rfl
@[ren_simp] theorem ren_Literal_regex (ρ a) : ren ρ (Literal.regex a) = .regex (ren ρ a) := rfl
@[ren_simp] theorem ren_txt (ρ) (a : Txt) : ren ρ a = ρ a := rfl
@[ren_simp] theorem ren_none {α} [Ren α] (ρ) : ren ρ (none : Option α) = none := rfl
@[ren_simp] theorem ren_some {α} [Ren α] (ρ) (a : α) : ren ρ (some a) = some (ren ρ a) := rfl
@[ren_simp] theorem ren_nil {α} [Ren α] (ρ) : ren ρ ([] : List α) = [] := rfl
@[ren_simp] theorem ren_cons {α} [Ren α] (ρ) (a : α) (l : List α) :
    ren ρ (a :: l) = ren ρ a :: ren ρ l := rfl
@[ren_simp] theorem ren_append {α} [Ren α] (ρ) (l m : List α) :
    ren ρ (l ++ m) = ren ρ l ++ ren ρ m := List.map_append
@[ren_simp] theorem ren_pair {α β} [Ren α] [Ren β] (ρ) (a : α) (b : β) :
    ren ρ (a, b) = (ren ρ a, ren ρ b) := rfl
@[ren_simp] theorem ren_inl {α β} [Ren α] [Ren β] (ρ) (a : α) :
    ren ρ (Sum.inl a : α ⊕ β) = .inl (ren ρ a) := rfl
@[ren_simp] theorem ren_inr {α β} [Ren α] [Ren β] (ρ) (b : β) :
    ren ρ (Sum.inr b : α ⊕ β) = .inr (ren ρ b) := rfl
@[ren_simp] theorem ren_length {α} [Ren α] (ρ) (l : List α) : (ren ρ l).length = l.length :=
  List.length_map _
theorem ren_map {α} [Ren α] (ρ) (l : List α) : ren ρ l = l.map (ren ρ) := rfl

theorem renLExpr_eq (ρ) : ∀ l, renLExpr ρ l = ren ρ l
  | [] => rfl
  | a :: l => by rw [renLExpr, renLExpr_eq ρ l]; rfl

theorem renLFunctionArg_eq (ρ) : ∀ l, renLFunctionArg ρ l = ren ρ l
  | [] => rfl
  | a :: l => by rw [renLFunctionArg, renLFunctionArg_eq ρ l]; rfl

theorem renLObjectPatPart_eq (ρ) : ∀ l, renLObjectPatPart ρ l = ren ρ l
  | [] => rfl
  | a :: l => by rw [renLObjectPatPart, renLObjectPatPart_eq ρ l]; rfl

theorem renLObjectProperty_eq (ρ) : ∀ l, renLObjectProperty ρ l = ren ρ l
  | [] => rfl
  | a :: l => by rw [renLObjectProperty, renLObjectProperty_eq ρ l]; rfl

theorem renLProgramPart_eq (ρ) : ∀ l, renLProgramPart ρ l = ren ρ l
  | [] => rfl
  | a :: l => by rw [renLProgramPart, renLProgramPart_eq ρ l]; rfl

theorem renLProperty_eq (ρ) : ∀ l, renLProperty ρ l = ren ρ l
  | [] => rfl
  | a :: l => by rw [renLProperty, renLProperty_eq ρ l]; rfl

theorem renLSwitchCase_eq (ρ) : ∀ l, renLSwitchCase ρ l = ren ρ l
  | [] => rfl
  | a :: l => by rw [renLSwitchCase, renLSwitchCase_eq ρ l]; rfl

theorem renLVariableDecl_eq (ρ) : ∀ l, renLVariableDecl ρ l = ren ρ l
  | [] => rfl
  | a :: l => by rw [renLVariableDecl, renLVariableDecl_eq ρ l]; rfl

theorem renOArrayPatPart_eq (ρ) : ∀ l, renOArrayPatPart ρ l = ren ρ l
  | none => rfl
  | some a => by rw [renOArrayPatPart]; rfl

theorem renOCatchClause_eq (ρ) : ∀ l, renOCatchClause ρ l = ren ρ l
  | none => rfl
  | some a => by rw [renOCatchClause]; rfl

theorem renOExpr_eq (ρ) : ∀ l, renOExpr ρ l = ren ρ l
  | none => rfl
  | some a => by rw [renOExpr]; rfl

theorem renOLoopInit_eq (ρ) : ∀ l, renOLoopInit ρ l = ren ρ l
  | none => rfl
  | some a => by rw [renOLoopInit]; rfl

theorem renOPat_eq (ρ) : ∀ l, renOPat ρ l = ren ρ l
  | none => rfl
  | some a => by rw [renOPat]; rfl

theorem renOStmt_eq (ρ) : ∀ l, renOStmt ρ l = ren ρ l
  | none => rfl
  | some a => by rw [renOStmt]; rfl

theorem renLOArrayPatPart_eq (ρ) : ∀ l, renLOArrayPatPart ρ l = ren ρ l
  | [] => rfl
  | a :: l => by rw [renLOArrayPatPart, renLOArrayPatPart_eq ρ l, renOArrayPatPart_eq]; rfl

theorem renLOExpr_eq (ρ) : ∀ l, renLOExpr ρ l = ren ρ l
  | [] => rfl
  | a :: l => by rw [renLOExpr, renLOExpr_eq ρ l, renOExpr_eq]; rfl

theorem renOLProgramPart_eq (ρ) : ∀ l, renOLProgramPart ρ l = ren ρ l
  | none => rfl
  | some a => by rw [renOLProgramPart, renLProgramPart_eq]; rfl

@[ren_simp] theorem ren_Expr_array (ρ) (a) :
    ren ρ (Expr.array a) = .array (ren ρ a) := by
  show Expr.ren ρ _ = _
  simp only [Expr.ren, renLOExpr_eq] <;> rfl
@[ren_simp] theorem ren_Expr_arrowBlock (ρ) (a b c d e) :
    ren ρ (Expr.arrowBlock a b c d e) = .arrowBlock (ren ρ a) (ren ρ b) c d e := by
  show Expr.ren ρ _ = _
  simp only [Expr.ren, renLFunctionArg_eq, renLProgramPart_eq] <;> rfl
@[ren_simp] theorem ren_Expr_arrowExpr (ρ) (a b c d e) :
    ren ρ (Expr.arrowExpr a b c d e) = .arrowExpr (ren ρ a) (ren ρ b) c d e := by
  show Expr.ren ρ _ = _
  simp only [Expr.ren, renLFunctionArg_eq] <;> rfl
@[ren_simp] theorem ren_Expr_arrowParamPlaceHolder (ρ) (a b) :
    ren ρ (Expr.arrowParamPlaceHolder a b) = .arrowParamPlaceHolder (ren ρ a) b := by
  show Expr.ren ρ _ = _
  simp only [Expr.ren, renLFunctionArg_eq] <;> rfl
@[ren_simp] theorem ren_Expr_assignment (ρ) (a b c) :
    ren ρ (Expr.assignment a b c) = .assignment a (ren ρ b) (ren ρ c) := by
  show Expr.ren ρ _ = _
  simp only [Expr.ren] <;> rfl
@[ren_simp] theorem ren_Expr_await (ρ) (a) :
    ren ρ (Expr.await a) = .await (ren ρ a) := by
  show Expr.ren ρ _ = _
  simp only [Expr.ren] <;> rfl
@[ren_simp] theorem ren_Expr_binary (ρ) (a b c) :
    ren ρ (Expr.binary a b c) = .binary a (ren ρ b) (ren ρ c) := by
  show Expr.ren ρ _ = _
  simp only [Expr.ren] <;> rfl
@[ren_simp] theorem ren_Expr_call (ρ) (a b) :
    ren ρ (Expr.call a b) = .call (ren ρ a) (ren ρ b) := by
  show Expr.ren ρ _ = _
  simp only [Expr.ren, renLExpr_eq] <;> rfl
@[ren_simp] theorem ren_Expr_class (ρ) (a) :
    ren ρ (Expr.class a) = .class (ren ρ a) := by
  show Expr.ren ρ _ = _
  simp only [Expr.ren] <;> rfl
@[ren_simp] theorem ren_Expr_conditional (ρ) (a b c) :
    ren ρ (Expr.conditional a b c) = .conditional (ren ρ a) (ren ρ b) (ren ρ c) := by
  show Expr.ren ρ _ = _
  simp only [Expr.ren] <;> rfl
@[ren_simp] theorem ren_Expr_function (ρ) (a) :
    ren ρ (Expr.function a) = .function (ren ρ a) := by
  show Expr.ren ρ _ = _
  simp only [Expr.ren] <;> rfl
@[ren_simp] theorem ren_Expr_ident (ρ) (a) :
    ren ρ (Expr.ident a) = .ident (ρ a) := by
  show Expr.ren ρ _ = _
  simp only [Expr.ren] <;> rfl
@[ren_simp] theorem ren_Expr_literal (ρ) (a) :
    ren ρ (Expr.literal a) = .literal (ren ρ a) := by
  show Expr.ren ρ _ = _
  simp only [Expr.ren] <;> rfl
@[ren_simp] theorem ren_Expr_template (ρ) (a b) :
    ren ρ (Expr.template a b) = .template (ren ρ a) (ren ρ b) := by
  show Expr.ren ρ _ = _
  simp only [Expr.ren, renLExpr_eq] <;> rfl
@[ren_simp] theorem ren_Expr_logical (ρ) (a b c) :
    ren ρ (Expr.logical a b c) = .logical a (ren ρ b) (ren ρ c) := by
  show Expr.ren ρ _ = _
  simp only [Expr.ren] <;> rfl
@[ren_simp] theorem ren_Expr_member (ρ) (a b c) :
    ren ρ (Expr.member a b c) = .member (ren ρ a) (ren ρ b) c := by
  show Expr.ren ρ _ = _
  simp only [Expr.ren] <;> rfl
@[ren_simp] theorem ren_Expr_metaProperty (ρ) (a b) :
    ren ρ (Expr.metaProperty a b) = .metaProperty (ρ a) (ρ b) := by
  show Expr.ren ρ _ = _
  simp only [Expr.ren] <;> rfl
@[ren_simp] theorem ren_Expr_new (ρ) (a b) :
    ren ρ (Expr.new a b) = .new (ren ρ a) (ren ρ b) := by
  show Expr.ren ρ _ = _
  simp only [Expr.ren, renLExpr_eq] <;> rfl
@[ren_simp] theorem ren_Expr_object (ρ) (a) :
    ren ρ (Expr.object a) = .object (ren ρ a) := by
  show Expr.ren ρ _ = _
  simp only [Expr.ren, renLObjectProperty_eq] <;> rfl
@[ren_simp] theorem ren_Expr_sequence (ρ) (a) :
    ren ρ (Expr.sequence a) = .sequence (ren ρ a) := by
  show Expr.ren ρ _ = _
  simp only [Expr.ren, renLExpr_eq] <;> rfl
@[ren_simp] theorem ren_Expr_spread (ρ) (a) :
    ren ρ (Expr.spread a) = .spread (ren ρ a) := by
  show Expr.ren ρ _ = _
  simp only [Expr.ren] <;> rfl
@[ren_simp] theorem ren_Expr_super (ρ) :
    ren ρ (Expr.super) = .super := by
  show Expr.ren ρ _ = _
  simp only [Expr.ren] <;> rfl
@[ren_simp] theorem ren_Expr_taggedTemplate (ρ) (a b c) :
    ren ρ (Expr.taggedTemplate a b c) = .taggedTemplate (ren ρ a) (ren ρ b) (ren ρ c) := by
  show Expr.ren ρ _ = _
  simp only [Expr.ren, renLExpr_eq] <;> rfl
@[ren_simp] theorem ren_Expr_this (ρ) :
    ren ρ (Expr.this) = .this := by
  show Expr.ren ρ _ = _
  simp only [Expr.ren] <;> rfl
@[ren_simp] theorem ren_Expr_unary (ρ) (a b c) :
    ren ρ (Expr.unary a b c) = .unary a (ren ρ b) c := by
  show Expr.ren ρ _ = _
  simp only [Expr.ren] <;> rfl
@[ren_simp] theorem ren_Expr_update (ρ) (a b c) :
    ren ρ (Expr.update a b c) = .update a (ren ρ b) c := by
  show Expr.ren ρ _ = _
  simp only [Expr.ren] <;> rfl
@[ren_simp] theorem ren_Expr_yield (ρ) (a b) :
    ren ρ (Expr.yield a b) = .yield (ren ρ a) b := by
  show Expr.ren ρ _ = _
  simp only [Expr.ren, renOExpr_eq] <;> rfl
@[ren_simp] theorem ren_Pat_identifier (ρ) (a) :
    ren ρ (Pat.identifier a) = .identifier (ρ a) := by
  show Pat.ren ρ _ = _
  simp only [Pat.ren] <;> rfl
@[ren_simp] theorem ren_Pat_object (ρ) (a) :
    ren ρ (Pat.object a) = .object (ren ρ a) := by
  show Pat.ren ρ _ = _
  simp only [Pat.ren, renLObjectPatPart_eq] <;> rfl
@[ren_simp] theorem ren_Pat_array (ρ) (a) :
    ren ρ (Pat.array a) = .array (ren ρ a) := by
  show Pat.ren ρ _ = _
  simp only [Pat.ren, renLOArrayPatPart_eq] <;> rfl
@[ren_simp] theorem ren_Pat_restElement (ρ) (a) :
    ren ρ (Pat.restElement a) = .restElement (ren ρ a) := by
  show Pat.ren ρ _ = _
  simp only [Pat.ren] <;> rfl
@[ren_simp] theorem ren_Pat_assignment (ρ) (a b) :
    ren ρ (Pat.assignment a b) = .assignment (ren ρ a) (ren ρ b) := by
  show Pat.ren ρ _ = _
  simp only [Pat.ren] <;> rfl
@[ren_simp] theorem ren_ArrayPatPart_pat (ρ) (a) :
    ren ρ (ArrayPatPart.pat a) = .pat (ren ρ a) := by
  show ArrayPatPart.ren ρ _ = _
  simp only [ArrayPatPart.ren] <;> rfl
@[ren_simp] theorem ren_ArrayPatPart_expr (ρ) (a) :
    ren ρ (ArrayPatPart.expr a) = .expr (ren ρ a) := by
  show ArrayPatPart.ren ρ _ = _
  simp only [ArrayPatPart.ren] <;> rfl
@[ren_simp] theorem ren_ObjectPatPart_assignment (ρ) (a) :
    ren ρ (ObjectPatPart.assignment a) = .assignment (ren ρ a) := by
  show ObjectPatPart.ren ρ _ = _
  simp only [ObjectPatPart.ren] <;> rfl
@[ren_simp] theorem ren_ObjectPatPart_rest (ρ) (a) :
    ren ρ (ObjectPatPart.rest a) = .rest (ren ρ a) := by
  show ObjectPatPart.ren ρ _ = _
  simp only [ObjectPatPart.ren] <;> rfl
@[ren_simp] theorem ren_ObjectProperty_property (ρ) (a) :
    ren ρ (ObjectProperty.property a) = .property (ren ρ a) := by
  show ObjectProperty.ren ρ _ = _
  simp only [ObjectProperty.ren] <;> rfl
@[ren_simp] theorem ren_ObjectProperty_spread (ρ) (a) :
    ren ρ (ObjectProperty.spread a) = .spread (ren ρ a) := by
  show ObjectProperty.ren ρ _ = _
  simp only [ObjectProperty.ren] <;> rfl
@[ren_simp] theorem ren_Property_mk (ρ) (a b c d e f) :
    ren ρ (Property.mk a b c d e f) = .mk (ren ρ a) (ren ρ b) c d e f := by
  show Property.ren ρ _ = _
  simp only [Property.ren] <;> rfl
@[ren_simp] theorem ren_PropertyKey_literal (ρ) (a) :
    ren ρ (PropertyKey.literal a) = .literal (ren ρ a) := by
  show PropertyKey.ren ρ _ = _
  simp only [PropertyKey.ren] <;> rfl
@[ren_simp] theorem ren_PropertyKey_expr (ρ) (a) :
    ren ρ (PropertyKey.expr a) = .expr (ren ρ a) := by
  show PropertyKey.ren ρ _ = _
  simp only [PropertyKey.ren] <;> rfl
@[ren_simp] theorem ren_PropertyKey_pat (ρ) (a) :
    ren ρ (PropertyKey.pat a) = .pat (ren ρ a) := by
  show PropertyKey.ren ρ _ = _
  simp only [PropertyKey.ren] <;> rfl
@[ren_simp] theorem ren_PropertyValue_expr (ρ) (a) :
    ren ρ (PropertyValue.expr a) = .expr (ren ρ a) := by
  show PropertyValue.ren ρ _ = _
  simp only [PropertyValue.ren] <;> rfl
@[ren_simp] theorem ren_PropertyValue_pat (ρ) (a) :
    ren ρ (PropertyValue.pat a) = .pat (ren ρ a) := by
  show PropertyValue.ren ρ _ = _
  simp only [PropertyValue.ren] <;> rfl
@[ren_simp] theorem ren_PropertyValue_none (ρ) :
    ren ρ (PropertyValue.none) = .none := by
  show PropertyValue.ren ρ _ = _
  simp only [PropertyValue.ren] <;> rfl
@[ren_simp] theorem ren_FunctionArg_expr (ρ) (a) :
    ren ρ (FunctionArg.expr a) = .expr (ren ρ a) := by
  show FunctionArg.ren ρ _ = _
  simp only [FunctionArg.ren] <;> rfl
@[ren_simp] theorem ren_FunctionArg_pat (ρ) (a) :
    ren ρ (FunctionArg.pat a) = .pat (ren ρ a) := by
  show FunctionArg.ren ρ _ = _
  simp only [FunctionArg.ren] <;> rfl
@[ren_simp] theorem ren_Function_mk (ρ) (a b c d e) :
    ren ρ (Function.mk a b c d e) = .mk (ren ρ a) (ren ρ b) (ren ρ c) d e := by
  show Function.ren ρ _ = _
  simp only [Function.ren, renLFunctionArg_eq, renLProgramPart_eq] <;> rfl
@[ren_simp] theorem ren_Class_mk (ρ) (a b c) :
    ren ρ (Class.mk a b c) = .mk (ren ρ a) (ren ρ b) (ren ρ c) := by
  show Class.ren ρ _ = _
  simp only [Class.ren, renOExpr_eq, renLProperty_eq] <;> rfl
@[ren_simp] theorem ren_VariableDecl_mk (ρ) (a b) :
    ren ρ (VariableDecl.mk a b) = .mk (ren ρ a) (ren ρ b) := by
  show VariableDecl.ren ρ _ = _
  simp only [VariableDecl.ren, renOExpr_eq] <;> rfl
@[ren_simp] theorem ren_LoopInit_variable (ρ) (a b) :
    ren ρ (LoopInit.variable a b) = .variable a (ren ρ b) := by
  show LoopInit.ren ρ _ = _
  simp only [LoopInit.ren, renLVariableDecl_eq] <;> rfl
@[ren_simp] theorem ren_LoopInit_expr (ρ) (a) :
    ren ρ (LoopInit.expr a) = .expr (ren ρ a) := by
  show LoopInit.ren ρ _ = _
  simp only [LoopInit.ren] <;> rfl
@[ren_simp] theorem ren_LoopLeft_variable (ρ) (a b) :
    ren ρ (LoopLeft.variable a b) = .variable a (ren ρ b) := by
  show LoopLeft.ren ρ _ = _
  simp only [LoopLeft.ren] <;> rfl
@[ren_simp] theorem ren_LoopLeft_expr (ρ) (a) :
    ren ρ (LoopLeft.expr a) = .expr (ren ρ a) := by
  show LoopLeft.ren ρ _ = _
  simp only [LoopLeft.ren] <;> rfl
@[ren_simp] theorem ren_SwitchCase_mk (ρ) (a b) :
    ren ρ (SwitchCase.mk a b) = .mk (ren ρ a) (ren ρ b) := by
  show SwitchCase.ren ρ _ = _
  simp only [SwitchCase.ren, renOExpr_eq, renLProgramPart_eq] <;> rfl
@[ren_simp] theorem ren_CatchClause_mk (ρ) (a b) :
    ren ρ (CatchClause.mk a b) = .mk (ren ρ a) (ren ρ b) := by
  show CatchClause.ren ρ _ = _
  simp only [CatchClause.ren, renOPat_eq, renLProgramPart_eq] <;> rfl
@[ren_simp] theorem ren_Stmt_expr (ρ) (a) :
    ren ρ (Stmt.expr a) = .expr (ren ρ a) := by
  show Stmt.ren ρ _ = _
  simp only [Stmt.ren] <;> rfl
@[ren_simp] theorem ren_Stmt_block (ρ) (a) :
    ren ρ (Stmt.block a) = .block (ren ρ a) := by
  show Stmt.ren ρ _ = _
  simp only [Stmt.ren, renLProgramPart_eq] <;> rfl
@[ren_simp] theorem ren_Stmt_empty (ρ) :
    ren ρ (Stmt.empty) = .empty := by
  show Stmt.ren ρ _ = _
  simp only [Stmt.ren] <;> rfl
@[ren_simp] theorem ren_Stmt_debugger (ρ) :
    ren ρ (Stmt.debugger) = .debugger := by
  show Stmt.ren ρ _ = _
  simp only [Stmt.ren] <;> rfl
@[ren_simp] theorem ren_Stmt_with (ρ) (a b) :
    ren ρ (Stmt.with a b) = .with (ren ρ a) (ren ρ b) := by
  show Stmt.ren ρ _ = _
  simp only [Stmt.ren] <;> rfl
@[ren_simp] theorem ren_Stmt_return (ρ) (a) :
    ren ρ (Stmt.return a) = .return (ren ρ a) := by
  show Stmt.ren ρ _ = _
  simp only [Stmt.ren, renOExpr_eq] <;> rfl
@[ren_simp] theorem ren_Stmt_labeled (ρ) (a b) :
    ren ρ (Stmt.labeled a b) = .labeled (ρ a) (ren ρ b) := by
  show Stmt.ren ρ _ = _
  simp only [Stmt.ren] <;> rfl
@[ren_simp] theorem ren_Stmt_break (ρ) (a) :
    ren ρ (Stmt.break a) = .break (ren ρ a) := by
  show Stmt.ren ρ _ = _
  simp only [Stmt.ren] <;> rfl
@[ren_simp] theorem ren_Stmt_continue (ρ) (a) :
    ren ρ (Stmt.continue a) = .continue (ren ρ a) := by
  show Stmt.ren ρ _ = _
  simp only [Stmt.ren] <;> rfl
@[ren_simp] theorem ren_Stmt_if (ρ) (a b c) :
    ren ρ (Stmt.if a b c) = .if (ren ρ a) (ren ρ b) (ren ρ c) := by
  show Stmt.ren ρ _ = _
  simp only [Stmt.ren, renOStmt_eq] <;> rfl
@[ren_simp] theorem ren_Stmt_switch (ρ) (a b) :
    ren ρ (Stmt.switch a b) = .switch (ren ρ a) (ren ρ b) := by
  show Stmt.ren ρ _ = _
  simp only [Stmt.ren, renLSwitchCase_eq] <;> rfl
@[ren_simp] theorem ren_Stmt_throw (ρ) (a) :
    ren ρ (Stmt.throw a) = .throw (ren ρ a) := by
  show Stmt.ren ρ _ = _
  simp only [Stmt.ren] <;> rfl
@[ren_simp] theorem ren_Stmt_try (ρ) (a b c) :
    ren ρ (Stmt.try a b c) = .try (ren ρ a) (ren ρ b) (ren ρ c) := by
  show Stmt.ren ρ _ = _
  simp only [Stmt.ren, renLProgramPart_eq, renOCatchClause_eq, renOLProgramPart_eq] <;> rfl
@[ren_simp] theorem ren_Stmt_while (ρ) (a b) :
    ren ρ (Stmt.while a b) = .while (ren ρ a) (ren ρ b) := by
  show Stmt.ren ρ _ = _
  simp only [Stmt.ren] <;> rfl
@[ren_simp] theorem ren_Stmt_doWhile (ρ) (a b) :
    ren ρ (Stmt.doWhile a b) = .doWhile (ren ρ a) (ren ρ b) := by
  show Stmt.ren ρ _ = _
  simp only [Stmt.ren] <;> rfl
@[ren_simp] theorem ren_Stmt_for (ρ) (a b c d) :
    ren ρ (Stmt.for a b c d) = .for (ren ρ a) (ren ρ b) (ren ρ c) (ren ρ d) := by
  show Stmt.ren ρ _ = _
  simp only [Stmt.ren, renOLoopInit_eq, renOExpr_eq, renOExpr_eq] <;> rfl
@[ren_simp] theorem ren_Stmt_forIn (ρ) (a b c) :
    ren ρ (Stmt.forIn a b c) = .forIn (ren ρ a) (ren ρ b) (ren ρ c) := by
  show Stmt.ren ρ _ = _
  simp only [Stmt.ren] <;> rfl
@[ren_simp] theorem ren_Stmt_forOf (ρ) (a b c d) :
    ren ρ (Stmt.forOf a b c d) = .forOf (ren ρ a) (ren ρ b) (ren ρ c) d := by
  show Stmt.ren ρ _ = _
  simp only [Stmt.ren] <;> rfl
@[ren_simp] theorem ren_Stmt_var (ρ) (a) :
    ren ρ (Stmt.var a) = .var (ren ρ a) := by
  show Stmt.ren ρ _ = _
  simp only [Stmt.ren, renLVariableDecl_eq] <;> rfl
@[ren_simp] theorem ren_Decl_variable (ρ) (a b) :
    ren ρ (Decl.variable a b) = .variable a (ren ρ b) := by
  show Decl.ren ρ _ = _
  simp only [Decl.ren, renLVariableDecl_eq] <;> rfl
@[ren_simp] theorem ren_Decl_function (ρ) (a) :
    ren ρ (Decl.function a) = .function (ren ρ a) := by
  show Decl.ren ρ _ = _
  simp only [Decl.ren] <;> rfl
@[ren_simp] theorem ren_Decl_class (ρ) (a) :
    ren ρ (Decl.class a) = .class (ren ρ a) := by
  show Decl.ren ρ _ = _
  simp only [Decl.ren] <;> rfl
@[ren_simp] theorem ren_Decl_import (ρ) (a) :
    ren ρ (Decl.import a) = .import (ren ρ a) := by
  show Decl.ren ρ _ = _
  simp only [Decl.ren] <;> rfl
@[ren_simp] theorem ren_Decl_export (ρ) (a) :
    ren ρ (Decl.export a) = .export (ren ρ a) := by
  show Decl.ren ρ _ = _
  simp only [Decl.ren] <;> rfl
@[ren_simp] theorem ren_ModExport_defaultDecl (ρ) (a) :
    ren ρ (ModExport.defaultDecl a) = .defaultDecl (ren ρ a) := by
  show ModExport.ren ρ _ = _
  simp only [ModExport.ren] <;> rfl
@[ren_simp] theorem ren_ModExport_defaultExpr (ρ) (a) :
    ren ρ (ModExport.defaultExpr a) = .defaultExpr (ren ρ a) := by
  show ModExport.ren ρ _ = _
  simp only [ModExport.ren] <;> rfl
@[ren_simp] theorem ren_ModExport_namedDecl (ρ) (a) :
    ren ρ (ModExport.namedDecl a) = .namedDecl (ren ρ a) := by
  show ModExport.ren ρ _ = _
  simp only [ModExport.ren] <;> rfl
@[ren_simp] theorem ren_ModExport_namedSpecifier (ρ) (a b) :
    ren ρ (ModExport.namedSpecifier a b) = .namedSpecifier (ren ρ a) (ren ρ b) := by
  show ModExport.ren ρ _ = _
  simp only [ModExport.ren] <;> rfl
@[ren_simp] theorem ren_ModExport_all (ρ) (a) :
    ren ρ (ModExport.all a) = .all (ρ a) := by
  show ModExport.ren ρ _ = _
  simp only [ModExport.ren] <;> rfl
@[ren_simp] theorem ren_ProgramPart_dir (ρ) (a b) :
    ren ρ (ProgramPart.dir a b) = .dir (ρ a) (trimQuotes (ρ a)) := by
  show ProgramPart.ren ρ _ = _
  simp only [ProgramPart.ren] <;> rfl
@[ren_simp] theorem ren_ProgramPart_decl (ρ) (a) :
    ren ρ (ProgramPart.decl a) = .decl (ren ρ a) := by
  show ProgramPart.ren ρ _ = _
  simp only [ProgramPart.ren] <;> rfl
@[ren_simp] theorem ren_ProgramPart_stmt (ρ) (a) :
    ren ρ (ProgramPart.stmt a) = .stmt (ren ρ a) := by
  show ProgramPart.ren ρ _ = _
  simp only [ProgramPart.ren] <;> rfl
@[ren_simp] theorem ren_ImportSpecifier_normal (ρ a b) :
    ren ρ (ImportSpecifier.normal a b) = .normal (ρ a) (ren ρ b) := rfl
@[ren_simp] theorem ren_ImportSpecifier_default (ρ a) :
    ren ρ (ImportSpecifier.default a) = .default (ρ a) := rfl
@[ren_simp] theorem ren_ImportSpecifier_namespace (ρ a) :
    ren ρ (ImportSpecifier.namespace a) = .namespace (ρ a) := rfl
@[ren_simp] theorem ren_ModImport_mk (ρ a b) : ren ρ (ModImport.mk a b) = ⟨ren ρ a, ρ b⟩ := rfl
@[ren_simp] theorem ren_ExportSpecifier_mk (ρ a b) :
    ren ρ (ExportSpecifier.mk a b) = ⟨ρ a, ren ρ b⟩ := rfl
@[ren_simp] theorem ren_Program_script (ρ a) :
    ren ρ (Program.script a) = .script (ren ρ a) := by
  show Program.ren ρ _ = _
  simp only [Program.ren, renLProgramPart_eq] <;> rfl
@[ren_simp] theorem ren_Program_mod (ρ a) :
    ren ρ (Program.mod a) = .mod (ren ρ a) := by
  show Program.ren ρ _ = _
  simp only [Program.ren, renLProgramPart_eq] <;> rfl

end Ressa
