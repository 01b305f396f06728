# Formal model of RESSA

RESSA is a recursive-descent ECMAScript parser.  Everything lives in `/repo/src/lib.rs`
(`/repo/src/error.rs` and `/repo/src/comment_handler.rs` are small).  The scanner (`ress`) and the
tree types (`resast`) are external crates and are not in the repository.

## Layout

| Path | Content |
|---|---|
| `lean/Verif/Model/Text.lean` | source text, UTF-8 byte offsets, slices |
| `lean/Verif/Model/Token.lean` | tokens, spans, items |
| `lean/Verif/Model/Ast.lean` | the tree types that `lib.rs` builds |
| `lean/Verif/Model/State.lean` | parser state, errors, monad, token access, context handling |
| `lean/Verif/Model/Expr.lean` | patterns, functions, classes, expressions |
| `lean/Verif/Model/Stmt.lean` | statements, declarations, import, export |
| `lean/Verif/Model/Api.lean` | recursion, iterator, `parse`, constructors, `Builder` |
| `lean/Verif/Model/Display.lean` | the texts of errors and positions |
| `lean/Verif/Spec/*.lean` | small independent specifications used in theorem statements |
| `lean/Verif/Proof/*.lean` | helper lemmas |
| `lean/Verif/Props/*.lean` | the property theorems, nothing else |

## How the code is modelled

* A `&mut self` method returning `Res<T>` is a function `St → Res T`.  `Res` has four outcomes:
  `ok value state`, `err error state`, `panic`, `diverge`.  The state survives an error because the
  caller of `Iterator::next` may go on using the parser.
* A failing slice, an arithmetic underflow, an index out of bounds and `unreachable!()` are
  `panic`.
* Loops and recursion take fuel; running out of fuel is `diverge`, never a silent result.  The fuel
  is the number of items left plus one.  C01 shows `diverge` is never produced, and `full_eq` shows
  that the fuel is invisible: the parser satisfies the recursion equations of the source.
* Each Rust method is one definition (long methods are split at their branches); each definition
  cites its lines.  The model was read against the source a second time, function by function,
  after it was complete.
* `usize` arithmetic is on `Nat`; subtractions that can underflow are explicit `panic`s.  Offsets
  are bounded by the length of the text, so overflow is not modelled.

## What is not modelled

* The scanner.  The model receives the list of items it will yield, each with the value of
  `pending_new_line` just before it is requested.  Assumptions: the scanner is deterministic;
  `get_state`/`set_state` and `look_ahead` restore it completely; `skip_comments` skips exactly
  the comment items; `string_for` is the source slice of a span.  `Scanner::next` returning `None`
  at the end is the end of the list.  Where a property needs the items to be well formed, this is
  an explicit hypothesis (`ScannerOk` in `Spec/Scanner.lean`), not an assumption of the model; it
  includes that a comment is not made of blanks only.
* Three predicates of `ress` on tokens (`is_restricted`, `is_strict_reserved`, `is_literal`) are
  arbitrary functions; theorems hold for all choices.  `is_restricted` is a function of the token
  kind and of the item's text, since identifier tokens carry their name; the other two are
  functions of the token kind (keywords are told apart, identifiers are not).
* Payloads of numeric and string tokens, which `lib.rs` never looks at.
* The `{:?}` renderings of tokens, punctuators and keywords, which `ress` derives: arbitrary
  functions.  Errors keep their parts; `Model/Display` formats them.
* Logging (`debug!`, `trace!`) and the effect of evaluating its arguments.
* Stack size: recursion depth is bounded (C01) but running out of stack is not an outcome.
* A user-written comment handler that panics.
* The fields `_tokens`, `_comments`, `_look_ahead`, which are never read.

## Trusted base

Lean's kernel; the axioms `propext`, `Classical.choice`, `Quot.sound` (no other axiom is used by
any theorem); the reading of `/repo/src/lib.rs` recorded in the citations; the reading of `resast`
and `ress` types off their uses in `lib.rs`.

## Proof method

1. A generic closure theorem.  The parser is built from a small set of primitives by sequencing,
   save/restore of the context, and loops.  `Closed J` says that a judgement `J` on pairs of
   parser computations is preserved by all of these.  One traversal of the whole parser shows that
   every closed judgement holds of every parser function.  Termination, fuel independence, absence
   of panics, state invariants, tolerant/non-tolerant and module/script comparisons are instances.
   `Proof/Sim` is the instance for two runs on different texts or different scanners: a relation on
   states that is kept by `next_item` and that decides the look-ahead tests alike is kept by every
   call, and the results agree (`Spec/Session` describes sequences of calls).  `Proof/Twin` repeats
   the closure theorem for pairs of computations that handle different items and positions
   (`TwinTraverse`), and `TwinSim` the simulation.
2. A grammar.  A declarative relation `G` (`Spec/Grammar.lean`) says which item sequences derive
   which tree; its rules mention neither the parser state nor the order of the parser's tests.  One
   traversal (`Proof/Run`, `RunTac`, `Sound`, `SoundExpr`, `SoundStmt`, `SoundTop`) shows that every
   successful parse is a derivation (`parse_sound`).  For expressions the traversal also carries
   the two flags of the cover grammar (`Proof/RunF`) and bounds them by a function of the tree
   (`Spec/Flags`).  Claims about all produced trees are inductions on
   derivations: `Proof/Trees` (`good_of_G`: conditions at every node, with the enclosing function
   body and labels) and `Proof/Leaves` (`leaves_of_G`: names and literals are spelled by the items,
   in order).  `Spec/Tree` has the vocabulary for nodes of a tree.
3. A grammar of accepted programs.  `Core` (`Spec/Core.lean`) has rules that are meant to be
   sufficient for acceptance: they say what may follow a phrase, and exclude what the parser
   reports.  `Exec` (`Proof/Exec`, `ExecTac`) runs parser functions forwards, `Means` says what each
   kind of phrase means for the parser, and one induction over derivations (`Proof/CoreRun`, with
   one lemma per rule in `CoreNames` … `CoreModules`) shows that the parser accepts every program
   of the grammar and returns its tree.  `yield` used as a name is not covered by `Core`.
4. A printer.  `Spec/Print` prints program trees as pieces and is partial: it yields `none` for
   trees without a text.  Structural recursion over trees (`Proof/PrintAll`, one lemma per
   constructor in `PrintExpr` … `PrintProg`) derives every printed program in `Core`;
   `Proof/PrintLayout` shows that a scanner can yield the pieces.  `Props/RoundTrip` puts these
   together with `Core` and with the executable scanner of `Spec/Demo`.
5. Direct proofs for the text functions, the operator loop and the decision procedures.

## Properties

| Id | What is modelled and how it is proved |
|---|---|
| C01 | whole parser; closure instance with the number of items left as measure |
| C02 | whole parser; closure instance on well-formed states, `unreachable!()` arms by the token test before them |
| C03 | whole parser; same measure as C01 |
| C04 | `next`; by definition of `next` and induction on the number of calls |
| C05 | `parse` against an inductive description of iterating `next` |
| C06 | witness states; induction on the number of calls |
| C07 | whole parser; closure instance (the flag is never written) |
| C08 | whole parser; relational closure instance on pairs of states that differ in `tolerant` |
| C09 | whole parser; relational closure instance on pairs of states that differ in `isModule` |
| C10 | whole parser; closure instance on the log of delivered comments |
| C11 | whole parser; closure instance on look-ahead and unread items |
| C12 | `get_lines`; induction on the text |
| C13 | `get_item_position`; induction on the search, with the table invariants of C12 |
| C14 | whole parser; closure instance on errors |
| C15 | whole parser; closure instance with the position invariant of `update_positions` |
| C16 | whole parser; closure instance on errors |
| C17 | `consume_semicolon`; case analysis |
| C18 | the operator loop against an independent definition of a well-grouped tree |
| C19 | `parse_exponentiation_expression`; induction on the chain |
| C20 | `parse_update_expr`; for an arbitrary parser of the operand |
| C21 | `parse_optionally_labeled_statement`; case analysis |
| C22–C30 | grammar traversal, then induction on trees |
| C31 | whole parser; closure instance on the context |
| C32 | whole parser; closure instance on the context, and a comparison of two runs |
| C33 | constructors and `Builder`; unfolding and induction over setter sequences |
| C34 | grammar traversal and the loop of `parse` |
| C35 | accepted-program grammar, whose rule for member access takes any item as name |
| C36 | grammar traversal |
| C38 | grammar traversal |
| C37 | printer; structural recursion over trees into the accepted-program grammar |
| C39 | forward runs, induction on derivations of the accepted-program grammar |
| C40 | grammar traversal with the flags `is_assignment_target` and `is_binding_element`, then induction on trees |
| C41 | grammar traversal, then induction on trees with strictness inherited from classes |
| C42 | simulation of runs on two texts; the line tables agree below the cut |
| C43 | simulation of runs with and without the comment items |
| C44 | whole parser; closure instance that compares all outcomes of two runs that differ in `tolerant`, up to a list of errors |
| C45 | the same for `isModule` |
| C46 | whole parser; closure instance on errors, relative to the state in which the call began |
| C47 | heterogeneous simulation of runs on two texts with the same tokens |
| C48, C50, C51, C52 | second grammar traversal (`Proof/Shapes`), with the item after a statement for C48 |
| C49 | the same, with the meaning of `await` inherited by methods |
| C53 | grammar traversal from any reachable state: the invariants of C02 and C33 hold also after errors. The tree properties (C23, C25–C30, C34, C36, C40, C41, C48–C52) use it (`Occurs`); those that depend on the environment at the top (C22, C24, parts of C49 and C58) hold before the first error only |
| C54 | induction over derivations of the grammar (`Shut`: the items of a phrase close the brackets opened before it and leave none open), then C38 and C53. `Balanced` looks at the kinds of the items only. Template pieces are not counted: the parser accepts a template head in place of a middle piece |
| C55 | the text of an error is cut at the first character that cannot belong to a position, from the front or from the back; the position comes from C47 applied to a text and itself |
| C56 | third grammar traversal (`Proof/Pure`): every phrase is free of placeholders up to one that stands directly before a `=>`, and no phrase begins with `=>`; then C38 and C53. The two places where the source asks for no `=>` are excluded by the condition on commas |
| C57 | soundness (C38) and acceptance (C39) meet: every derivation of `G` over the vocabulary is one of the textbook grammar `Small` (fourth traversal of the rules, `Proof/SmallBack`), and every phrase of `Small` satisfies the facts of the printer proof (`Proof/Small`), hence is in `Core`. As in the standard, the grammar carries whether `in` is an operator at the place (`Place.inOk`): a phrase of the heads of loops is lifted to any other place, and what stands in brackets or parentheses is read as everywhere. Texts come in two kinds, because the flag that says whether an expression can be assigned to is left as the last statement of a function body set it: without functions, anything built of names, members, arrays, sequences, assignments and templates is a target, in parentheses or not; with functions, neighbours are restricted so that nothing in parentheses, no array and no template is assigned to. Templates have no substitutions; that they are in backquotes, and regular expressions in slashes, is no hypothesis on the text but comes with the scanner (`ready`). `let` is both a keyword of declarations and, as a name, an expression (at level 19: no rule asks for more); that a derivation of `G` does not take `let x` for the expression `let` and something after it is `let_stuck` |
| C58 | fifth grammar traversal (`Proof/Yields`). The grammar follows `yield` in `Env.gen` if `Cfg.exact` is set; the parser invariant behind it (`Run`) can follow it as long as no item is `get`, because a getter of a class does not restore `allow_yield`. All other uses set `exact` to false, where `yield` may be an operator or a name anywhere |
| C59 | the two-text simulation of C47 (`Twin`), started in the middle of both texts: an `Anchor` fixes where the two parsers began and what they had delivered. The frame of C31, the exact grammar environment of C58 and the drained-scanner invariant determine the state between two parts up to `first_covert_initialized_name_error` and `allow_strict_directive`; the first decides nothing, the second only in `parse_directive` against a string `use strict` without quotes |
| C60 | a traversal of the grammar (`weight_of_G`) that bounds a weight of the trees by six per item; the weight charges arrays and sequences more than their components, so that reading them again as patterns or parameters is paid for by the first reading. `Node.count` itself (`Spec/Count`) is just the number of components |
| C61 | the two-text simulation of C47 once more, with results related by `ren ρ` (`Spec/Rename`) instead of equality and the labels in force renamed; `Ren`, `RenTraverse` and `RenSim` are the counterparts of `Twin`, `TwinTraverse` and `TwinSim`. `ρ` applies to all items whose text goes into the tree (`Token.isWord`); the parts of a regular expression and the text between the delimiters of a template piece are those of the new text, which has delimiters by `ScannerOk`. Errors are compared in kind and place, not in their messages, which quote names |
| C62 | the equivalence of C57, used twice: a phrase of `Small` stays one if line breaks are added, or left out after a punctuator that ends no phrase with an implied semicolon (`Small.wrap`, an induction on derivations that also says which phrases cannot end with such a punctuator), and so does the description of the texts (`Wrap.text`) |
