import Verif.Model.State

/-!
# The text of an error

`impl Display` of `Position` (src/lib.rs:70-74) and of `Error` (src/error.rs:17-32), and the texts
that `expected_token_error` and `unexpected_token_error` format (src/lib.rs:4482-4513).  The
`{:?}` renderings of tokens, punctuators and keywords are derived in the crate `ress` and are
arbitrary here.
-/

namespace Ressa

/-- The `{:?}` renderings of the types of `ress`. -/
structure Debug where
  token : Token → Txt
  punct : Punct → Txt
  keyword : Keyword → Txt

/-- `{}` of a `usize`. -/
def showNat (n : Nat) : Txt := Nat.toDigits 10 n

/-- `impl Display for Position` (src/lib.rs:70-74). -/
def Position.display (p : Position) : Txt := showNat p.line ++ ':' :: showNat p.column

/-- One expectation as text (src/lib.rs:4243, 4253). -/
def Expect.display (D : Debug) : Expect → Txt
  | .text t => t
  | .punct p => D.punct p
  | .keyword k => D.keyword k

/-- The items between the first and the last are separated by `, `; the last of several is preceded
by `or` (src/lib.rs:4486-4496).  `first` is whether nothing precedes. -/
def expectations (D : Debug) : Bool → List Expect → Txt
  | _, [] => []
  | true, [e] => '`' :: e.display D ++ ['`']
  | false, [e] => t!"or `" ++ e.display D ++ ['`']
  | _, e :: es => '`' :: e.display D ++ t!"`, " ++ expectations D false es

/-- The text of an unexpected-token error (src/lib.rs:4497-4500, 4508-4511). -/
def Msg.display (D : Debug) : Msg → Txt
  | .expected es found => t!"Expected " ++ expectations D true es ++ t!"; found " ++ D.token found
  | .unexpected name msg => t!"Found unexpected token: " ++ name ++ t!"; " ++ msg
  | .raw msg => msg

/-- `impl Display for Error` (src/error.rs:17-32). -/
def Error.display (D : Debug) : Error → Txt
  | .unexpectedToken pos msg => t!"Unexpected Token at " ++ pos.display ++ t!": " ++ msg.display D
  | .unexpectedEoF => t!"Unexpectedly found the end of the file"
  | .parseAfterEoF =>
    t!"Parser attempted to get the next token after finding the end of the file"
  | .unableToReinterpret pos from_ to =>
    t!"Unable to re-interpret from " ++ from_ ++ t!" to " ++ to ++ t!" at " ++ pos.display
  | .redecl pos name => t!"Nested label at " ++ pos.display ++ t!" shadows parent: " ++ name
  | .operationError pos msg => t!"Invalid operation, " ++ pos.display ++ t!": " ++ msg
  | .invalidGetterParams pos => t!"Found a getter method that takes arguments at " ++ pos.display ++
    t!", getter methods cannot take arguments"
  | .invalidSetterParams pos =>
    t!"Found a setter method that takes more or less than 1 argument at " ++ pos.display ++
      t!", setter methods must take only one argument"
  | .nonStrictFeatureInStrictContext pos name =>
    t!"Attempting to use non-strict feature " ++ name ++ t!" in a strict context at " ++ pos.display

end Ressa
