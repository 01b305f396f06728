import Verif.Model.Text

/-!
# Tokens

The token vocabulary of the `ress` 0.6 scanner that `src/lib.rs` uses
(`use ress::{refs::{RefItem as Item, RefScanner as Scanner, RefToken as Token}, Keyword, Punct,
Span}`, src/lib.rs:51-54).  The scanner itself is an external crate and is not modelled: the
parser model is handed the list of items the scanner yields (see `Verif.Model.State`).
-/

namespace Ressa

/-- `ress::Punct`. -/
inductive Punct
  | and | assign | asterisk | bitwiseNot | caret | closeBrace | closeBracket | closeParen
  | colon | comma | forwardSlash | greaterThan | lessThan | minus | modulo | not | openBrace
  | openBracket | openParen | period | pipe | plus | questionMark | semiColon | spread
  | unsignedRightShiftAssign | strictEquals | strictNotEquals | unsignedRightShift
  | leftShiftAssign | rightShiftAssign | exponentAssign | logicalAnd | logicalOr | equal
  | notEqual | addAssign | subtractAssign | multiplyAssign | divideAssign | moduloAssign
  | increment | decrement | leftShift | rightShift | bitwiseAndAssign | bitwiseOrAssign
  | bitwiseXOrAssign | fatArrow | greaterThanEqual | lessThanEqual | exponent | atMark | hash
  deriving DecidableEq, Repr

/-- `ress::Keyword`. -/
inductive Keyword
  | «await» | «break» | «case» | «catch» | «class» | «const» | «continue» | «debugger»
  | «default» | «import» | «delete» | «do» | «else» | «enum» | «export» | «extends»
  | «finally» | «for» | «function» | «if» | «in» | «implements» | «instanceOf» | «interface»
  | «let» | «new» | «package» | «private» | «protected» | «public» | «return» | «static»
  | «super» | «switch» | «this» | «throw» | «try» | «typeOf» | «var» | «void» | «while»
  | «with» | «yield»
  deriving DecidableEq, Repr

/-- `ress::refs::tokens::Template`. -/
inductive TemplateKind
  | head | body | tail | noSub
  deriving DecidableEq, Repr

/-- `ress::refs::tokens::Comment`. -/
inductive CommentKind
  | singleLine | multiLine | html
  deriving DecidableEq, Repr

/-- `ress::refs::RefToken`.  The payloads of `Numeric` (number base) and `String` (quote kind)
are never inspected by `src/lib.rs` and are dropped. -/
inductive Token
  | eof
  | ident
  | keyword (k : Keyword)
  | punct (p : Punct)
  | numeric
  | string
  | regex
  | template (t : TemplateKind)
  | comment (k : CommentKind)
  | boolean (b : Bool)
  | null
  deriving DecidableEq, Repr

/-- `ress::Span`: byte offsets into the source text. -/
structure Span where
  start : Nat
  stop : Nat
  deriving DecidableEq, Repr

/-- `ress::refs::RefItem`. -/
structure Item where
  token : Token
  span : Span
  deriving DecidableEq, Repr

namespace Token

/-- `RefToken::is_eof`. -/
def isEof : Token → Bool
  | eof => true
  | _ => false
/-- `RefToken::is_ident`. -/
def isIdent : Token → Bool
  | ident => true
  | _ => false
/-- `RefToken::is_keyword`. -/
def isKeyword : Token → Bool
  | keyword _ => true
  | _ => false
/-- `RefToken::is_punct`. -/
def isPunct : Token → Bool
  | punct _ => true
  | _ => false
/-- `RefToken::is_number`. -/
def isNumber : Token → Bool
  | numeric => true
  | _ => false
/-- `RefToken::is_string`. -/
def isString : Token → Bool
  | string => true
  | _ => false
/-- `RefToken::is_regex`. -/
def isRegex : Token → Bool
  | regex => true
  | _ => false
/-- `RefToken::is_template`. -/
def isTemplate : Token → Bool
  | template _ => true
  | _ => false
/-- `RefToken::is_template_head`: a head or a template without substitutions
(see the error text at src/lib.rs:2685). -/
def isTemplateHead : Token → Bool
  | template .head => true
  | template .noSub => true
  | _ => false
/-- `RefToken::is_bool`. -/
def isBool : Token → Bool
  | boolean _ => true
  | _ => false
/-- `RefToken::is_null`. -/
def isNull : Token → Bool
  | null => true
  | _ => false
/-- `Token::Comment(_)`. -/
def isComment : Token → Bool
  | comment _ => true
  | _ => false
/-- `RefToken::matches_punct`. -/
def matchesPunct (t : Token) (p : Punct) : Bool := t == punct p
/-- `RefToken::matches_keyword`. -/
def matchesKeyword (t : Token) (k : Keyword) : Bool := t == keyword k

end Token

/-- `impl ToString for ress::Keyword`: the keyword's source text (used at src/lib.rs:2832). -/
def Keyword.text : Keyword → Txt
  | .«await» => t!"await" | .«break» => t!"break" | .«case» => t!"case"
  | .«catch» => t!"catch" | .«class» => t!"class" | .«const» => t!"const"
  | .«continue» => t!"continue" | .«debugger» => t!"debugger" | .«default» => t!"default"
  | .«import» => t!"import" | .«delete» => t!"delete" | .«do» => t!"do" | .«else» => t!"else"
  | .«enum» => t!"enum" | .«export» => t!"export" | .«extends» => t!"extends"
  | .«finally» => t!"finally" | .«for» => t!"for" | .«function» => t!"function"
  | .«if» => t!"if" | .«in» => t!"in" | .«implements» => t!"implements"
  | .«instanceOf» => t!"instanceof" | .«interface» => t!"interface" | .«let» => t!"let"
  | .«new» => t!"new" | .«package» => t!"package" | .«private» => t!"private"
  | .«protected» => t!"protected" | .«public» => t!"public" | .«return» => t!"return"
  | .«static» => t!"static" | .«super» => t!"super" | .«switch» => t!"switch"
  | .«this» => t!"this" | .«throw» => t!"throw" | .«try» => t!"try" | .«typeOf» => t!"typeof"
  | .«var» => t!"var" | .«void» => t!"void" | .«while» => t!"while" | .«with» => t!"with"
  | .«yield» => t!"yield"

end Ressa
