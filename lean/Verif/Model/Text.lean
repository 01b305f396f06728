/-!
# Text

Source text is a list of Unicode scalar values; byte offsets are computed from the UTF-8
width of each character, as Rust's `&str` indexing does.  `Txt` is used instead of `String`
so that the kernel can evaluate the model on concrete inputs.
-/

namespace Ressa

/-- Rust `String` / `&str` as a list of characters. -/
abbrev Txt := List Char

/-- Elaborates to the literal list of characters of a string literal. -/
macro:max "t!" s:str : term => do
  let cs := s.getString.toList.map fun c => Lean.Syntax.mkCharLit c
  `(([$(cs.toArray),*] : List Char))

/-- UTF-8 byte length, Rust `str::len`. -/
def blen : Txt → Nat
  | [] => 0
  | c :: t => c.utf8Size + blen t

/-- Drop `n` bytes; `none` if `n` is not a character boundary of the text
(Rust `str::get(n..)`). -/
def dropB : Txt → Nat → Option Txt
  | t, 0 => some t
  | [], _ + 1 => none
  | c :: t, n + 1 => if c.utf8Size ≤ n + 1 then dropB t (n + 1 - c.utf8Size) else none

/-- Take `n` bytes; `none` if `n` is not a character boundary of the text
(Rust `str::get(..n)`). -/
def takeB : Txt → Nat → Option Txt
  | _, 0 => some []
  | [], _ + 1 => none
  | c :: t, n + 1 =>
      if c.utf8Size ≤ n + 1 then (takeB t (n + 1 - c.utf8Size)).map (c :: ·) else none

/-- Rust `str::get(a..b)`: `none` exactly when indexing `&s[a..b]` would panic, that is when
`a > b`, an end is out of range, or an end is not a character boundary. -/
def sliceB (t : Txt) (a b : Nat) : Option Txt :=
  if a ≤ b then (dropB t a).bind (takeB · (b - a)) else none

/-- The four characters `update_positions` counts as line terminators
(src/lib.rs:4212, 4221). -/
def isLineTerm (c : Char) : Bool :=
  c == '\n' || c == '\r' || c == '\u2028' || c == '\u2029'

/-- `whitespace.matches("\r\n").count()` (src/lib.rs:4212): occurrences of CR LF. -/
def countCrlf : Txt → Nat
  | [] => 0
  | '\r' :: '\n' :: t => countCrlf t + 1
  | _ :: t => countCrlf t

/-- The text after the last `\n`.  For a text whose last character is not a line terminator
this is Rust's `prev_text.lines().last()` (src/lib.rs:4217): `str::lines` splits at `\n` only. -/
def afterLastLf : Txt → Txt
  | [] => []
  | c :: t => if t.any (· == '\n') then afterLastLf t else if c == '\n' then t else c :: t

/-- `s.trim_matches(|c| c == '\'' || c == '"')` (src/lib.rs:535). -/
def isQuote (c : Char) : Bool := c == '\'' || c == '"'

/-- Rust `str::trim_matches` with the predicate above. -/
def trimQuotes (t : Txt) : Txt :=
  ((t.dropWhile isQuote).reverse.dropWhile isQuote).reverse

/-- Split at the last occurrence of `/`: `raw.rfind('/')` followed by the two slices
`raw[..end]` and `raw[end + 1..]` (src/lib.rs:2329-2333).  `none` when there is no `/`. -/
def splitLastSlash : Txt → Option (Txt × Txt)
  | [] => none
  | c :: t =>
    match splitLastSlash t with
    | some (a, b) => some (c :: a, b)
    | none => if c == '/' then some ([], t) else none

end Ressa
