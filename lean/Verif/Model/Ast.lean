import Verif.Model.Text

/-!
# Abstract syntax

The part of `resast` 0.2 (`use resast::prelude::*`, src/lib.rs:62) that `src/lib.rs` builds,
read off the constructor calls there.  `Box<T>` is `T`, `Vec<T>` is `List T`.
-/

namespace Ressa

/-- `resast::VariableKind`. -/
inductive VariableKind
  | var | let | const
  deriving DecidableEq, Repr

/-- `resast::PropertyKind`. -/
inductive PropertyKind
  | init | get | set | method | ctor
  deriving DecidableEq, Repr

/-- `resast::AssignmentOperator` (src/lib.rs:3198-3217). -/
inductive AssignmentOperator
  | equal | plusEqual | minusEqual | timesEqual | divEqual | modEqual | leftShiftEqual
  | rightShiftEqual | unsignedRightShiftEqual | orEqual | xOrEqual | andEqual | powerOfEqual
  deriving DecidableEq, Repr

/-- `resast::BinaryOperator` (src/lib.rs:3628-3659 and 3562). -/
inductive BinaryOperator
  | equal | notEqual | strictEqual | strictNotEqual | lessThan | greaterThan | lessThanEqual
  | greaterThanEqual | leftShift | rightShift | unsignedRightShift | plus | minus | times
  | over | mod | or | xOr | and | in | instanceOf | powerOf
  deriving DecidableEq, Repr

/-- `resast::LogicalOperator` (src/lib.rs:3661-3670). -/
inductive LogicalOperator
  | or | and
  deriving DecidableEq, Repr

/-- `resast::UnaryOperator` (src/lib.rs:3609-3626). -/
inductive UnaryOperator
  | minus | plus | not | tilde | typeOf | void | delete
  deriving DecidableEq, Repr

/-- `resast::UpdateOperator`. -/
inductive UpdateOperator
  | increment | decrement
  deriving DecidableEq, Repr

/-- `resast::TemplateElement` (src/lib.rs:2715). -/
structure TemplateElement where
  raw : Txt
  cooked : Txt
  tail : Bool
  deriving DecidableEq, Repr

/-- `resast::RegEx` (src/lib.rs:2334). -/
structure RegEx where
  pattern : Txt
  flags : Txt
  deriving DecidableEq, Repr

/-- `resast::Literal` without `Template`: the template case needs expressions and is the
constructor `Expr.template` below (src/lib.rs:2306-2308 is the only place that builds it). -/
inductive Literal
  | null
  | string (s : Txt)
  | number (s : Txt)
  | boolean (b : Bool)
  | regex (r : RegEx)
  deriving DecidableEq, Repr

/-- `resast::ImportSpecifier`. -/
inductive ImportSpecifier
  | normal (imported : Txt) (local_ : Option Txt)
  | default (name : Txt)
  | namespace (name : Txt)
  deriving DecidableEq, Repr

/-- `resast::ModImport`; `source` is always a `Literal::String` (src/lib.rs:859) and is kept as
its text. -/
structure ModImport where
  specifiers : List ImportSpecifier
  source : Txt
  deriving DecidableEq, Repr

/-- `resast::ExportSpecifier`. -/
structure ExportSpecifier where
  local_ : Txt
  exported : Option Txt
  deriving DecidableEq, Repr

mutual

/-- `resast::Expr`.  Structs used only once (`BinaryExpr`, `CallExpr`, `ArrowFunctionExpr`, ...)
are inlined.  `AssignmentLeft` is always `Expr` in src/lib.rs (3145, 3147) and is inlined.
An arrow function's `id` is always `None` and is dropped; its two body shapes are the two
constructors `arrowBlock` (`ArrowFunctionBody::FunctionBody`) and `arrowExpr`
(`ArrowFunctionBody::Expr`). `template es qs` is `Literal(Template { expressions, quasis })`. -/
inductive Expr
  | array (elements : List (Option Expr))
  | arrowBlock (params : List FunctionArg) (body : List ProgramPart)
      (expression generator isAsync : Bool)
  | arrowExpr (params : List FunctionArg) (body : Expr) (expression generator isAsync : Bool)
  | arrowParamPlaceHolder (args : List FunctionArg) (isAsync : Bool)
  | assignment (operator : AssignmentOperator) (left right : Expr)
  | await (argument : Expr)
  | binary (operator : BinaryOperator) (left right : Expr)
  | call (callee : Expr) (arguments : List Expr)
  | class (c : Class)
  | conditional (test alternate consequent : Expr)
  | function (f : Function)
  | ident (name : Txt)
  | literal (l : Literal)
  | template (expressions : List Expr) (quasis : List TemplateElement)
  | logical (operator : LogicalOperator) (left right : Expr)
  | member (object property : Expr) (computed : Bool)
  | metaProperty (meta_ property : Txt)
  | new (callee : Expr) (arguments : List Expr)
  | object (props : List ObjectProperty)
  | sequence (exprs : List Expr)
  | spread (argument : Expr)
  | super
  | taggedTemplate (tag : Expr) (expressions : List Expr) (quasis : List TemplateElement)
  | this
  | unary (operator : UnaryOperator) (argument : Expr) (prefix_ : Bool)
  | update (operator : UpdateOperator) (argument : Expr) (prefix_ : Bool)
  | yield (argument : Option Expr) (delegate : Bool)

/-- `resast::Pat`.  `AssignmentPat { left, right }` is inlined. -/
inductive Pat
  | identifier (name : Txt)
  | object (parts : List ObjectPatPart)
  | array (parts : List (Option ArrayPatPart))
  | restElement (p : Pat)
  | assignment (left : Pat) (right : Expr)

/-- `resast::ArrayPatPart`. -/
inductive ArrayPatPart
  | pat (p : Pat)
  | expr (e : Expr)

/-- `resast::ObjectPatPart`. -/
inductive ObjectPatPart
  | assignment (p : Property)
  | rest (p : Pat)

/-- `resast::ObjectProperty`. -/
inductive ObjectProperty
  | property (p : Property)
  | spread (e : Expr)

/-- `resast::Property`. -/
inductive Property
  | mk (key : PropertyKey) (value : PropertyValue) (kind : PropertyKind)
      (method computed shortHand : Bool)

/-- `resast::PropertyKey`. -/
inductive PropertyKey
  | literal (l : Literal)
  | expr (e : Expr)
  | pat (p : Pat)

/-- `resast::PropertyValue`. -/
inductive PropertyValue
  | expr (e : Expr)
  | pat (p : Pat)
  | none

/-- `resast::FunctionArg`. -/
inductive FunctionArg
  | expr (e : Expr)
  | pat (p : Pat)

/-- `resast::Function`. -/
inductive Function
  | mk (id : Option Txt) (params : List FunctionArg) (body : List ProgramPart)
      (generator isAsync : Bool)

/-- `resast::Class`. -/
inductive Class
  | mk (id : Option Txt) (superClass : Option Expr) (body : List Property)

/-- `resast::VariableDecl`. -/
inductive VariableDecl
  | mk (id : Pat) (init : Option Expr)

/-- `resast::LoopInit`. -/
inductive LoopInit
  | variable (kind : VariableKind) (decls : List VariableDecl)
  | expr (e : Expr)

/-- `resast::LoopLeft`. -/
inductive LoopLeft
  | variable (kind : VariableKind) (decl : VariableDecl)
  | expr (e : Expr)

/-- `resast::SwitchCase`. -/
inductive SwitchCase
  | mk (test : Option Expr) (consequent : List ProgramPart)

/-- `resast::CatchClause`. -/
inductive CatchClause
  | mk (param : Option Pat) (body : List ProgramPart)

/-- `resast::Stmt`. -/
inductive Stmt
  | expr (e : Expr)
  | block (b : List ProgramPart)
  | empty
  | debugger
  | with (object : Expr) (body : Stmt)
  | return (e : Option Expr)
  | labeled (label : Txt) (body : Stmt)
  | break (label : Option Txt)
  | continue (label : Option Txt)
  | if (test : Expr) (consequent : Stmt) (alternate : Option Stmt)
  | switch (discriminant : Expr) (cases : List SwitchCase)
  | throw (e : Expr)
  | try (block : List ProgramPart) (handler : Option CatchClause)
      (finalizer : Option (List ProgramPart))
  | while (test : Expr) (body : Stmt)
  | doWhile (test : Expr) (body : Stmt)
  | for (init : Option LoopInit) (test update : Option Expr) (body : Stmt)
  | forIn (left : LoopLeft) (right : Expr) (body : Stmt)
  | forOf (left : LoopLeft) (right : Expr) (body : Stmt) (isAwait : Bool)
  | var (decls : List VariableDecl)

/-- `resast::Decl`. -/
inductive Decl
  | variable (kind : VariableKind) (decls : List VariableDecl)
  | function (f : Function)
  | class (c : Class)
  | import (i : ModImport)
  | export (e : ModExport)

/-- `resast::ModExport`, with `DefaultExportDecl` and `NamedExportDecl` inlined; sources are
always `Literal::String` and are kept as their text. -/
inductive ModExport
  | defaultDecl (d : Decl)
  | defaultExpr (e : Expr)
  | namedDecl (d : Decl)
  | namedSpecifier (specs : List ExportSpecifier) (source : Option Txt)
  | all (source : Txt)

/-- `resast::ProgramPart`; `Dir { expr, dir }` is inlined, `expr` is always a
`Literal::String` (src/lib.rs:536) and is kept as its text. -/
inductive ProgramPart
  | dir (expr : Txt) (dir : Txt)
  | decl (d : Decl)
  | stmt (s : Stmt)

end

/-- `resast::Program`. -/
inductive Program
  | script (parts : List ProgramPart)
  | mod (parts : List ProgramPart)

end Ressa
