import Verif.Spec.Session

/-!
# Renaming

`ren ρ` replaces every word `w` in a tree by `ρ w`: identifiers, properties after a dot, keys that
are names, labels, names that are imported and exported, the texts of strings and numbers, where
they are literals, keys, directives or the sources of modules, and the texts of regular expressions
and template pieces, delimiters included.

The trees and the renaming do not refer to the parser, apart from the second field of a directive,
which is the first without its quotes; `specialWords` are the words the parser compares identifiers,
keys and directives with.
-/

namespace Ressa

/-- Values with words in them. -/
class Ren (α : Type) where
  /-- Replace every word. -/
  ren : (Txt → Txt) → α → α

export Ren (ren)

/-- The text of a template piece without its delimiters. -/
def innerText (tail : Bool) (w : Txt) : Txt :=
  if tail then (w.drop 1).dropLast else (w.drop 1).dropLast.dropLast

/-- Renaming in a template piece. -/
def TemplateElement.ren (ρ : Txt → Txt) (e : TemplateElement) : TemplateElement :=
  ⟨ρ e.raw, innerText e.tail (ρ e.raw), e.tail⟩

/-- The regular expression with a text: what is before and after the last slash. -/
def regexOf (w : Txt) : RegEx :=
  ⟨((w.reverse.dropWhile (· != '/')).drop 1).reverse.drop 1, (w.reverse.takeWhile (· != '/')).reverse⟩

/-- Renaming in a regular expression. -/
def RegEx.ren (ρ : Txt → Txt) (r : RegEx) : RegEx :=
  regexOf (ρ ('/' :: (r.pattern ++ '/' :: r.flags)))

/-- Renaming in a literal. -/
def Literal.ren (ρ : Txt → Txt) : Literal → Literal
  | .null => .null
  | .string a => .string (ρ a)
  | .number a => .number (ρ a)
  | .boolean a => .boolean a
  | .regex a => .regex (a.ren ρ)

/-- Renaming in an import specifier. -/
def ImportSpecifier.ren (ρ : Txt → Txt) : ImportSpecifier → ImportSpecifier
  | .normal a b => .normal (ρ a) (b.map ρ)
  | .default a => .default (ρ a)
  | .namespace a => .namespace (ρ a)

/-- Renaming in an import. -/
def ModImport.ren (ρ : Txt → Txt) (m : ModImport) : ModImport :=
  ⟨m.specifiers.map (·.ren ρ), ρ m.source⟩

/-- Renaming in an export specifier. -/
def ExportSpecifier.ren (ρ : Txt → Txt) (s : ExportSpecifier) : ExportSpecifier :=
  ⟨ρ s.local_, s.exported.map ρ⟩

mutual
/-- Renaming in an expression. -/
def Expr.ren (ρ : Txt → Txt) : Expr → Expr
  | .array a => .array (renLOExpr ρ a)
  | .arrowBlock a b c d e => .arrowBlock (renLFunctionArg ρ a) (renLProgramPart ρ b) c d e
  | .arrowExpr a b c d e => .arrowExpr (renLFunctionArg ρ a) (b.ren ρ) c d e
  | .arrowParamPlaceHolder a b => .arrowParamPlaceHolder (renLFunctionArg ρ a) b
  | .assignment a b c => .assignment a (b.ren ρ) (c.ren ρ)
  | .await a => .await (a.ren ρ)
  | .binary a b c => .binary a (b.ren ρ) (c.ren ρ)
  | .call a b => .call (a.ren ρ) (renLExpr ρ b)
  | .class a => .class (a.ren ρ)
  | .conditional a b c => .conditional (a.ren ρ) (b.ren ρ) (c.ren ρ)
  | .function a => .function (a.ren ρ)
  | .ident a => .ident (ρ a)
  | .literal a => .literal (a.ren ρ)
  | .template a b => .template (renLExpr ρ a) (b.map (·.ren ρ))
  | .logical a b c => .logical a (b.ren ρ) (c.ren ρ)
  | .member a b c => .member (a.ren ρ) (b.ren ρ) c
  | .metaProperty a b => .metaProperty (ρ a) (ρ b)
  | .new a b => .new (a.ren ρ) (renLExpr ρ b)
  | .object a => .object (renLObjectProperty ρ a)
  | .sequence a => .sequence (renLExpr ρ a)
  | .spread a => .spread (a.ren ρ)
  | .super => .super
  | .taggedTemplate a b c => .taggedTemplate (a.ren ρ) (renLExpr ρ b) (c.map (·.ren ρ))
  | .this => .this
  | .unary a b c => .unary a (b.ren ρ) c
  | .update a b c => .update a (b.ren ρ) c
  | .yield a b => .yield (renOExpr ρ a) b
/-- Likewise. -/
def Pat.ren (ρ : Txt → Txt) : Pat → Pat
  | .identifier a => .identifier (ρ a)
  | .object a => .object (renLObjectPatPart ρ a)
  | .array a => .array (renLOArrayPatPart ρ a)
  | .restElement a => .restElement (a.ren ρ)
  | .assignment a b => .assignment (a.ren ρ) (b.ren ρ)
/-- Likewise. -/
def ArrayPatPart.ren (ρ : Txt → Txt) : ArrayPatPart → ArrayPatPart
  | .pat a => .pat (a.ren ρ)
  | .expr a => .expr (a.ren ρ)
/-- Likewise. -/
def ObjectPatPart.ren (ρ : Txt → Txt) : ObjectPatPart → ObjectPatPart
  | .assignment a => .assignment (a.ren ρ)
  | .rest a => .rest (a.ren ρ)
/-- Likewise. -/
def ObjectProperty.ren (ρ : Txt → Txt) : ObjectProperty → ObjectProperty
  | .property a => .property (a.ren ρ)
  | .spread a => .spread (a.ren ρ)
/-- Likewise. -/
def Property.ren (ρ : Txt → Txt) : Property → Property
  | .mk a b c d e f => .mk (a.ren ρ) (b.ren ρ) c d e f
/-- Likewise. -/
def PropertyKey.ren (ρ : Txt → Txt) : PropertyKey → PropertyKey
  | .literal a => .literal (a.ren ρ)
  | .expr a => .expr (a.ren ρ)
  | .pat a => .pat (a.ren ρ)
/-- Likewise. -/
def PropertyValue.ren (ρ : Txt → Txt) : PropertyValue → PropertyValue
  | .expr a => .expr (a.ren ρ)
  | .pat a => .pat (a.ren ρ)
  | .none => .none
/-- Likewise. -/
def FunctionArg.ren (ρ : Txt → Txt) : FunctionArg → FunctionArg
  | .expr a => .expr (a.ren ρ)
  | .pat a => .pat (a.ren ρ)
/-- Likewise. -/
def Function.ren (ρ : Txt → Txt) : Function → Function
  | .mk a b c d e => .mk (a.map ρ) (renLFunctionArg ρ b) (renLProgramPart ρ c) d e
/-- Likewise. -/
def Class.ren (ρ : Txt → Txt) : Class → Class
  | .mk a b c => .mk (a.map ρ) (renOExpr ρ b) (renLProperty ρ c)
/-- Likewise. -/
def VariableDecl.ren (ρ : Txt → Txt) : VariableDecl → VariableDecl
  | .mk a b => .mk (a.ren ρ) (renOExpr ρ b)
/-- Likewise. -/
def LoopInit.ren (ρ : Txt → Txt) : LoopInit → LoopInit
  | .variable a b => .variable a (renLVariableDecl ρ b)
  | .expr a => .expr (a.ren ρ)
/-- Likewise. -/
def LoopLeft.ren (ρ : Txt → Txt) : LoopLeft → LoopLeft
  | .variable a b => .variable a (b.ren ρ)
  | .expr a => .expr (a.ren ρ)
/-- Likewise. -/
def SwitchCase.ren (ρ : Txt → Txt) : SwitchCase → SwitchCase
  | .mk a b => .mk (renOExpr ρ a) (renLProgramPart ρ b)
/-- Likewise. -/
def CatchClause.ren (ρ : Txt → Txt) : CatchClause → CatchClause
  | .mk a b => .mk (renOPat ρ a) (renLProgramPart ρ b)
/-- Likewise. -/
def Stmt.ren (ρ : Txt → Txt) : Stmt → Stmt
  | .expr a => .expr (a.ren ρ)
  | .block a => .block (renLProgramPart ρ a)
  | .empty => .empty
  | .debugger => .debugger
  | .with a b => .with (a.ren ρ) (b.ren ρ)
  | .return a => .return (renOExpr ρ a)
  | .labeled a b => .labeled (ρ a) (b.ren ρ)
  | .break a => .break (a.map ρ)
  | .continue a => .continue (a.map ρ)
  | .if a b c => .if (a.ren ρ) (b.ren ρ) (renOStmt ρ c)
  | .switch a b => .switch (a.ren ρ) (renLSwitchCase ρ b)
  | .throw a => .throw (a.ren ρ)
  | .try a b c => .try (renLProgramPart ρ a) (renOCatchClause ρ b) (renOLProgramPart ρ c)
  | .while a b => .while (a.ren ρ) (b.ren ρ)
  | .doWhile a b => .doWhile (a.ren ρ) (b.ren ρ)
  | .for a b c d => .for (renOLoopInit ρ a) (renOExpr ρ b) (renOExpr ρ c) (d.ren ρ)
  | .forIn a b c => .forIn (a.ren ρ) (b.ren ρ) (c.ren ρ)
  | .forOf a b c d => .forOf (a.ren ρ) (b.ren ρ) (c.ren ρ) d
  | .var a => .var (renLVariableDecl ρ a)
/-- Likewise. -/
def Decl.ren (ρ : Txt → Txt) : Decl → Decl
  | .variable a b => .variable a (renLVariableDecl ρ b)
  | .function a => .function (a.ren ρ)
  | .class a => .class (a.ren ρ)
  | .import a => .import (a.ren ρ)
  | .export a => .export (a.ren ρ)
/-- Likewise. -/
def ModExport.ren (ρ : Txt → Txt) : ModExport → ModExport
  | .defaultDecl a => .defaultDecl (a.ren ρ)
  | .defaultExpr a => .defaultExpr (a.ren ρ)
  | .namedDecl a => .namedDecl (a.ren ρ)
  | .namedSpecifier a b => .namedSpecifier (a.map (·.ren ρ)) (b.map ρ)
  | .all a => .all (ρ a)
/-- Likewise. -/
def ProgramPart.ren (ρ : Txt → Txt) : ProgramPart → ProgramPart
  | .dir a _ => .dir (ρ a) (trimQuotes (ρ a))
  | .decl a => .decl (a.ren ρ)
  | .stmt a => .stmt (a.ren ρ)
/-- Likewise. -/
def renLExpr (ρ : Txt → Txt) : List Expr → List Expr
  | [] => []
  | a :: l => a.ren ρ :: renLExpr ρ l
/-- Likewise. -/
def renLFunctionArg (ρ : Txt → Txt) : List FunctionArg → List FunctionArg
  | [] => []
  | a :: l => a.ren ρ :: renLFunctionArg ρ l
/-- Likewise. -/
def renLOArrayPatPart (ρ : Txt → Txt) : List (Option ArrayPatPart) → List (Option ArrayPatPart)
  | [] => []
  | a :: l => renOArrayPatPart ρ a :: renLOArrayPatPart ρ l
/-- Likewise. -/
def renLOExpr (ρ : Txt → Txt) : List (Option Expr) → List (Option Expr)
  | [] => []
  | a :: l => renOExpr ρ a :: renLOExpr ρ l
/-- Likewise. -/
def renLObjectPatPart (ρ : Txt → Txt) : List ObjectPatPart → List ObjectPatPart
  | [] => []
  | a :: l => a.ren ρ :: renLObjectPatPart ρ l
/-- Likewise. -/
def renLObjectProperty (ρ : Txt → Txt) : List ObjectProperty → List ObjectProperty
  | [] => []
  | a :: l => a.ren ρ :: renLObjectProperty ρ l
/-- Likewise. -/
def renLProgramPart (ρ : Txt → Txt) : List ProgramPart → List ProgramPart
  | [] => []
  | a :: l => a.ren ρ :: renLProgramPart ρ l
/-- Likewise. -/
def renLProperty (ρ : Txt → Txt) : List Property → List Property
  | [] => []
  | a :: l => a.ren ρ :: renLProperty ρ l
/-- Likewise. -/
def renLSwitchCase (ρ : Txt → Txt) : List SwitchCase → List SwitchCase
  | [] => []
  | a :: l => a.ren ρ :: renLSwitchCase ρ l
/-- Likewise. -/
def renLVariableDecl (ρ : Txt → Txt) : List VariableDecl → List VariableDecl
  | [] => []
  | a :: l => a.ren ρ :: renLVariableDecl ρ l
/-- Likewise. -/
def renOArrayPatPart (ρ : Txt → Txt) : Option ArrayPatPart → Option ArrayPatPart
  | none => none
  | some a => some (a.ren ρ)
/-- Likewise. -/
def renOCatchClause (ρ : Txt → Txt) : Option CatchClause → Option CatchClause
  | none => none
  | some a => some (a.ren ρ)
/-- Likewise. -/
def renOExpr (ρ : Txt → Txt) : Option Expr → Option Expr
  | none => none
  | some a => some (a.ren ρ)
/-- Likewise. -/
def renOLProgramPart (ρ : Txt → Txt) : Option (List ProgramPart) → Option (List ProgramPart)
  | none => none
  | some a => some (renLProgramPart ρ a)
/-- Likewise. -/
def renOLoopInit (ρ : Txt → Txt) : Option LoopInit → Option LoopInit
  | none => none
  | some a => some (a.ren ρ)
/-- Likewise. -/
def renOPat (ρ : Txt → Txt) : Option Pat → Option Pat
  | none => none
  | some a => some (a.ren ρ)
/-- Likewise. -/
def renOStmt (ρ : Txt → Txt) : Option Stmt → Option Stmt
  | none => none
  | some a => some (a.ren ρ)
end

/-- Renaming in a program. -/
def Program.ren (ρ : Txt → Txt) : Program → Program
  | .script l => .script (renLProgramPart ρ l)
  | .mod l => .mod (renLProgramPart ρ l)

instance : Ren Txt := ⟨fun ρ => ρ⟩
instance {α} [Ren α] : Ren (Option α) := ⟨fun ρ => Option.map (ren ρ)⟩
instance {α} [Ren α] : Ren (List α) := ⟨fun ρ => List.map (ren ρ)⟩
instance {α β} [Ren α] [Ren β] : Ren (α × β) := ⟨fun ρ p => (ren ρ p.1, ren ρ p.2)⟩
instance {α β} [Ren α] [Ren β] : Ren (α ⊕ β) := ⟨fun ρ => Sum.map (ren ρ) (ren ρ)⟩
instance : Ren Unit := ⟨fun _ a => a⟩
instance : Ren Bool := ⟨fun _ a => a⟩
instance : Ren Nat := ⟨fun _ a => a⟩
instance : Ren Empty := ⟨fun _ a => a⟩
instance : Ren VariableKind := ⟨fun _ a => a⟩
instance : Ren PropertyKind := ⟨fun _ a => a⟩
instance : Ren AssignmentOperator := ⟨fun _ a => a⟩
instance : Ren BinaryOperator := ⟨fun _ a => a⟩
instance : Ren LogicalOperator := ⟨fun _ a => a⟩
instance : Ren UnaryOperator := ⟨fun _ a => a⟩
instance : Ren UpdateOperator := ⟨fun _ a => a⟩
instance : Ren TemplateElement := ⟨TemplateElement.ren⟩
instance : Ren RegEx := ⟨RegEx.ren⟩
instance : Ren Literal := ⟨Literal.ren⟩
instance : Ren ImportSpecifier := ⟨ImportSpecifier.ren⟩
instance : Ren ModImport := ⟨ModImport.ren⟩
instance : Ren ExportSpecifier := ⟨ExportSpecifier.ren⟩
instance : Ren Expr := ⟨Expr.ren⟩
instance : Ren Pat := ⟨Pat.ren⟩
instance : Ren ArrayPatPart := ⟨ArrayPatPart.ren⟩
instance : Ren ObjectPatPart := ⟨ObjectPatPart.ren⟩
instance : Ren ObjectProperty := ⟨ObjectProperty.ren⟩
instance : Ren Property := ⟨Property.ren⟩
instance : Ren PropertyKey := ⟨PropertyKey.ren⟩
instance : Ren PropertyValue := ⟨PropertyValue.ren⟩
instance : Ren FunctionArg := ⟨FunctionArg.ren⟩
instance : Ren Function := ⟨Function.ren⟩
instance : Ren Class := ⟨Class.ren⟩
instance : Ren VariableDecl := ⟨VariableDecl.ren⟩
instance : Ren LoopInit := ⟨LoopInit.ren⟩
instance : Ren LoopLeft := ⟨LoopLeft.ren⟩
instance : Ren SwitchCase := ⟨SwitchCase.ren⟩
instance : Ren CatchClause := ⟨CatchClause.ren⟩
instance : Ren Stmt := ⟨Stmt.ren⟩
instance : Ren Decl := ⟨Decl.ren⟩
instance : Ren ModExport := ⟨ModExport.ren⟩
instance : Ren ProgramPart := ⟨ProgramPart.ren⟩
instance : Ren Program := ⟨Program.ren⟩

/-- The words the parser looks at. -/
def specialWords : List Txt :=
  [t!"async", t!"await", t!"get", t!"set", t!"static", t!"constructor", t!"prototype", t!"extends",
    t!"target", t!"eval", t!"arguments", t!"implements", t!"interface", t!"package", t!"private",
    t!"protected", t!"public", t!"yield", t!"let", t!"const", t!"var", t!"new", t!"of", t!"as",
    t!"from", t!"_proto_", t!"use strict"]

/-- Items whose text goes into the tree: identifiers, strings, numbers, regular expressions and pieces
of templates. -/
def Token.isWord : Token → Bool
  | .ident | .string | .numeric | .regex | .template _ => true
  | _ => false

/-- `ρ` gives different words to different words and leaves the words the parser looks at. -/
class Words (ρ : Txt → Txt) : Prop where
  inj {a b} : ρ a = ρ b → a = b
  special {w} : w ∈ specialWords → ρ w = w
  keyword (k : Keyword) : ρ k.text = k.text

/-- Errors of the same kind at places related by `place`. -/
inductive ErrorKind (place : Position → Position → Prop) : Error → Error → Prop
  | unexpectedToken {p p'} (m m') : place p p' →
    ErrorKind place (.unexpectedToken p m) (.unexpectedToken p' m')
  | unexpectedEoF : ErrorKind place .unexpectedEoF .unexpectedEoF
  | parseAfterEoF : ErrorKind place .parseAfterEoF .parseAfterEoF
  | unableToReinterpret {p p'} (a b a' b') : place p p' →
    ErrorKind place (.unableToReinterpret p a b) (.unableToReinterpret p' a' b')
  | redecl {p p'} (t t') : place p p' → ErrorKind place (.redecl p t) (.redecl p' t')
  | operationError {p p'} (t t') : place p p' →
    ErrorKind place (.operationError p t) (.operationError p' t')
  | invalidGetterParams {p p'} : place p p' →
    ErrorKind place (.invalidGetterParams p) (.invalidGetterParams p')
  | invalidSetterParams {p p'} : place p p' →
    ErrorKind place (.invalidSetterParams p) (.invalidSetterParams p')
  | nonStrict {p p'} (t t') : place p p' →
    ErrorKind place (.nonStrictFeatureInStrictContext p t) (.nonStrictFeatureInStrictContext p' t')

/-- The second reply is the first with the names replaced, or both are errors of the same kind at
places related by `place`. -/
inductive ReplyRen (ρ : Txt → Txt) (place : Position → Position → Prop) : Reply → Reply → Prop
  | nextOk (o) : ReplyRen ρ place (.nextOk o) (.nextOk (ren ρ o))
  | parseOk (p) : ReplyRen ρ place (.parseOk p) (.parseOk (ren ρ p))
  | exprOk (x) : ReplyRen ρ place (.exprOk x) (.exprOk (ren ρ x))
  | nextErr {e e'} : ErrorKind place e e' → ReplyRen ρ place (.nextErr e) (.nextErr e')
  | parseErr {e e'} : ErrorKind place e e' → ReplyRen ρ place (.parseErr e) (.parseErr e')
  | exprErr {e e'} : ErrorKind place e e' → ReplyRen ρ place (.exprErr e) (.exprErr e')

/-- The second replies are the first with the names replaced. -/
inductive RepliesRen (ρ : Txt → Txt) (place : Position → Position → Prop) :
    List Reply → List Reply → Prop
  | nil : RepliesRen ρ place [] []
  | cons {r r' rs rs'} : ReplyRen ρ place r r' → RepliesRen ρ place rs rs' →
    RepliesRen ρ place (r :: rs) (r' :: rs')

end Ressa
