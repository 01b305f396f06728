import Verif.Spec.Runs

/-!
# What the scanner yields

`ScannerOk` is what the parser may expect of the external scanner.
-/

namespace Ressa

/-- The look-ahead item of a parser that has not read anything (src/lib.rs:440-443). -/
def noItem : Item := { token := .eof, span := { start := 0, stop := 0 } }

/-- The last item among `pre` that is not a comment. -/
def lastItem (pre : List Tok) : Item :=
  ((pre.filter fun t => !t.item.token.isComment).getLast?.map (·.item)).getD noItem

/-- The comments among `pre`: kind, source text and span. -/
def commentsOf (text : Txt) (pre : List Tok) : List (CommentKind × Txt × Span) :=
  pre.filterMap fun t =>
    match t.item.token with
    | .comment k =>
      (sliceB text t.item.span.start t.item.span.stop).map fun c => (k, c, t.item.span)
    | _ => none

/-- The only line terminator in the text is LF. -/
def LfOnly (t : Txt) : Prop := ∀ c ∈ t, isLineTerm c = true → c = '\n'

/-- Byte offset `n` is not between a CR and an LF. -/
def Whole (text : Txt) (n : Nat) : Prop :=
  ∀ p u, text = p ++ u → blen p = n → ¬(p.getLast? = some '\r' ∧ u.head? = some '\n')

/-- The line terminators in the text are LF and CR LF.  No item contains a CR, starts at one or
starts in the middle of a CR LF. -/
structure Breaks (text : Txt) (toks : List Tok) : Prop where
  terms : ∀ c ∈ text, isLineTerm c = true → c = '\n' ∨ c = '\r'
  crlf : ∀ a b, text = a ++ '\r' :: b → b.head? = some '\n'
  items : ∀ t ∈ toks, ∀ raw, sliceB text t.item.span.start t.item.span.stop = some raw → '\r' ∉ raw
  starts : ∀ t ∈ toks, ∀ p u, text = p ++ u → blen p = t.item.span.start → u.head? ≠ some '\r'
  whole : ∀ t ∈ toks, Whole text t.item.span.start

/-- The source text of an item has the delimiters of its kind. -/
def ShapeOk (raw : Txt) : Token → Prop
  | .template .head => ∃ mid, raw = '`' :: (mid ++ ['$', '{'])
  | .template .body => ∃ mid, raw = '}' :: (mid ++ ['$', '{'])
  | .template .tail => ∃ mid, raw = '}' :: (mid ++ ['`'])
  | .template .noSub => ∃ mid, raw = '`' :: (mid ++ ['`'])
  | .regex => ∃ pat flags, raw = '/' :: (pat ++ '/' :: flags) ∧ '/' ∉ flags
  | .comment _ => ∃ c ∈ raw, c ≠ ' ' ∧ c ≠ '\t'
  | _ => True

/-- The span of an item selects a piece of the text with the right delimiters. -/
def ItemOk (text : Txt) (i : Item) : Prop :=
  ∃ raw, sliceB text i.span.start i.span.stop = some raw ∧ ShapeOk raw i.token

/-- The items are pieces of the text, in order and without overlap, followed by one end of file. -/
structure ScannerOk (text : Txt) (toks : List Tok) : Prop where
  items : ∀ t ∈ toks, ItemOk text t.item
  ordered : toks.Pairwise fun a b => a.item.span.stop ≤ b.item.span.start
  last : ∃ body e, toks = body ++ [e] ∧ e.item.token = .eof ∧ ∀ t ∈ body, t.item.token ≠ .eof

end Ressa
