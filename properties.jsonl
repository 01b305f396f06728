{"id": "C01", "title": "Every call returns", "statement": "Parser::new, Builder::build, Parser::next, Parser::parse and Parser::parse_expression return for every source text and every setting: no input makes them loop for ever or recurse without bound. The recursion depth of one call is bounded by the number of scanner items left plus one.", "quantifier": "every list of scanner items (well formed or not), every tolerant/module setting, every state the parser can be in between calls", "why_tests_cant": "A hang needs one specific token order in one of about forty loops and eight recursive entry points; tests only run finitely many inputs and a hang looks like a slow test.", "anchors": ["src/lib.rs: parse", "src/lib.rs: Iterator::next", "src/lib.rs: parse_expression", "src/lib.rs: parse_statement_list_item", "src/lib.rs: next_item"]}
{"id": "C02", "title": "No panic on scanner output", "statement": "If the scanner yields items whose spans are in order and on character boundaries of the source text, ends with an end-of-file item, and whose template and regular expression items contain their delimiters, then construction, every iteration and parse never panic, including after errors.", "quantifier": "every source text and every well-formed item list over it, every setting, any number of calls of next", "why_tests_cant": "The code has unchecked slices, unchecked subtractions, five unreachable!() and unchecked vector indexing; showing none fires needs an argument about all inputs.", "anchors": ["src/lib.rs: update_positions", "src/lib.rs: at_contextual_keyword", "src/lib.rs: get_item_position", "src/lib.rs: parse_primary_expression", "src/lib.rs: parse_update_expr", "src/lib.rs: parse_for_stmt", "src/lib.rs: parse_binary_expression", "src/lib.rs: parse_template_element"]}
{"id": "C03", "title": "Each part consumes input", "statement": "Whenever the iterator yields Ok(part), at least one scanner item has been consumed; hence the number of parts of a program is at most the number of items of the source.", "quantifier": "every item list, every setting, every point of the iteration", "why_tests_cant": "A part that consumes nothing shows up only for the token sequence that triggers it.", "anchors": ["src/lib.rs: Iterator::next", "src/lib.rs: next_part", "src/lib.rs: parse_statement_list_item"]}
{"id": "C04", "title": "End of iteration is stable", "statement": "The iterator yields None exactly when the look-ahead token is the end of file, yielding None changes nothing, and after the first None every further call yields None.", "quantifier": "every reachable parser state and any number of further calls", "why_tests_cant": "Tests can call next only finitely often.", "anchors": ["src/lib.rs: Iterator::next"]}
{"id": "C05", "title": "parse is collecting the iterator", "statement": "parse returns Ok(program) exactly when iterating yields Ok(p1), ..., Ok(pn), None, and the program then has exactly the parts p1..pn in that order; parse returns Err(e) exactly when iterating yields Ok values followed by Err(e), and e is the first error.", "quantifier": "every parser state, any number of parts", "why_tests_cant": "It relates two ways of driving the parser on all inputs.", "anchors": ["src/lib.rs: parse", "src/lib.rs: Iterator::next"]}
{"id": "C06", "title": "Errors do not end the iteration", "statement": "There are source texts on which the iterator yields the same Err on every call for ever, without consuming input; a loop that skips errors never terminates there.", "quantifier": "all numbers of further calls, for the exhibited texts (any text whose next token is a stray closing parenthesis)", "why_tests_cant": "The claim is about an infinite sequence of calls.", "anchors": ["src/lib.rs: Iterator::next", "src/lib.rs: parse_primary_expression"]}
{"id": "C07", "title": "Module setting decides the program variant", "statement": "parse returns Program::Mod exactly when the parser was built with module(true), and Program::Script otherwise, whatever the text contains.", "quantifier": "every text, every setting", "why_tests_cant": "The flag must survive every execution path of the parser.", "anchors": ["src/lib.rs: parse", "src/lib.rs: Context", "src/lib.rs: Builder::module"]}
{"id": "C08", "title": "Tolerant mode only accepts more", "statement": "If a text parses without tolerance then it parses with tolerance to the identical program, with the same comments delivered; more generally each Ok result of next is unchanged by switching tolerance on.", "quantifier": "every item list, every parser state", "why_tests_cant": "Needs a comparison of two runs over every input; the tolerant flag is consulted in about twenty places.", "anchors": ["src/lib.rs: tolerate_error", "src/lib.rs: expect_comma_sep", "src/lib.rs: Config"]}
{"id": "C09", "title": "Module mode only accepts less", "statement": "If a text parses as a module then it parses as a script to the same parts.", "quantifier": "every item list, every parser state", "why_tests_cant": "Needs a comparison of two runs over every input.", "anchors": ["src/lib.rs: parse_var_ident", "src/lib.rs: parse_primary_expression", "src/lib.rs: Context"]}
{"id": "C10", "title": "Comments are delivered once, in order, verbatim", "statement": "The comment handler receives exactly the comments among the consumed scanner items, each exactly once, in source order, with the kind, the source slice and the span of that comment; look-ahead peeks deliver nothing; after a successful parse every comment of the source has been delivered.", "quantifier": "every item list, every setting, every execution path", "why_tests_cant": "Duplicate or lost deliveries depend on where a comment falls relative to look-ahead.", "anchors": ["src/lib.rs: next_item", "src/comment_handler.rs: CommentHandler::handle_comment", "src/lib.rs: at_import_call", "src/lib.rs: at_lexical_decl"]}
{"id": "C11", "title": "Items are read once, in order", "statement": "The parser reads the scanner items left to right without skipping, repeating or reordering: at every moment the look-ahead is the most recent non-comment item and the unread items are a suffix of the original list.", "quantifier": "every item list, every setting, every execution including failing ones", "why_tests_cant": "It is an invariant of all intermediate states.", "anchors": ["src/lib.rs: next_item", "src/lib.rs: at_async_function", "src/lib.rs: at_lexical_decl"]}
{"id": "C12", "title": "The line table covers the text", "statement": "The line table of a text starts at offset 0, consecutive lines are contiguous, the last line ends at the last byte, and there is exactly one more line than there are line terminators, where CR LF counts once.", "quantifier": "every text (the count: every text in which each lone carriage return is followed by an ASCII character)", "why_tests_cant": "Terminator combinations and multi-byte characters are unbounded.", "anchors": ["src/lib.rs: get_lines", "src/lib.rs: Line"]}
{"id": "C13", "title": "Offsets are mapped to the right line and column", "statement": "For every offset that is not at a line terminator, in a text whose carriage returns are each followed by a one-byte character, the position computed for an item starting there has line = 1 + number of line terminators before the offset, and the start of that line plus the column gives the offset back.", "quantifier": "every such text, every such offset, every table length", "why_tests_cant": "Binary search boundaries depend on the table length and the offset.", "anchors": ["src/lib.rs: get_item_position"]}
{"id": "C14", "title": "Unexpected-token errors point at a token of the source", "statement": "The position in every UnexpectedToken error is the one the line table gives for the start of a scanner item of the source, hence its line and column, and the message names the kind or the text of that same item.", "quantifier": "every item list, every setting, every error", "why_tests_cant": "Quantifies over all failing executions.", "anchors": ["src/lib.rs: expected_token_error", "src/lib.rs: unexpected_token_error", "src/lib.rs: get_item_position"]}
{"id": "C15", "title": "Tracked positions agree with the line table", "statement": "In a text whose line terminators are LF and CR LF, CR LF only between items, the incrementally tracked look-ahead position is, at every moment, the line and column of the start of the look-ahead item, and what the line table gives for it unless the item starts with LF itself.", "quantifier": "every such text, every well-formed item list over it, every reachable state", "why_tests_cant": "It is an invariant over all histories of position updates.", "anchors": ["src/lib.rs: update_positions", "src/lib.rs: get_item_position"]}
{"id": "C16", "title": "Which errors can be returned", "statement": "On well-formed scanner output the parser never returns OperationError, UnexpectedEoF or Other; ParseAfterEoF is returned only when the end of file has already been consumed. UnableToReinterpret is always from expression to pattern, and NonStrictFeatureInStrictContext names a restricted identifier or a with statement.", "quantifier": "every well-formed item list, every setting, every call", "why_tests_cant": "A claim that no execution produces an error kind.", "anchors": ["src/error.rs: Error", "src/lib.rs: op_error", "src/lib.rs: next_item", "src/lib.rs: get_string"]}
{"id": "C17", "title": "Automatic semicolon insertion", "statement": "The end of a statement that needs a semicolon succeeds exactly when the next token is a semicolon, or is on a new line, or is a closing brace or the end of file; it consumes the semicolon and only the semicolon.", "quantifier": "every parser state", "why_tests_cant": "Every combination of next token and newline flag.", "anchors": ["src/lib.rs: consume_semicolon"]}
{"id": "C18", "title": "Binary operators group by precedence, left to right", "statement": "The tree returned for operands joined by binary and logical operators contains the operands and operators in source order, and every operator node's left operand is an operator of precedence at least, and right operand an operator of precedence strictly greater than, its own; such a tree is unique.", "quantifier": "every number of operands, every operator sequence", "why_tests_cant": "The shift-reduce loop has unboundedly many operator sequences.", "anchors": ["src/lib.rs: parse_binary_expression", "src/lib.rs: bin_precedence", "src/lib.rs: determine_precedence", "src/lib.rs: parse_exponentiation_expression"]}
{"id": "C19", "title": "Exponentiation is right associative and binds tighter", "statement": "a ** b ** c is read as a ** (b ** c), and an operand of any other binary operator contains the whole ** chain.", "quantifier": "chains of every length", "why_tests_cant": "Unbounded chains.", "anchors": ["src/lib.rs: parse_exponentiation_expression"]}
{"id": "C20", "title": "Postfix operators stay on their line", "statement": "A ++ or -- that is preceded by a line terminator is never taken as a postfix operator of the expression before it.", "quantifier": "every expression, every state", "why_tests_cant": "Depends on an arbitrary preceding expression.", "anchors": ["src/lib.rs: parse_update_expr"]}
{"id": "C21", "title": "Jump labels stay on their line", "statement": "break and continue take a label exactly when the next token is an identifier on the same line.", "quantifier": "every state", "why_tests_cant": "All states.", "anchors": ["src/lib.rs: parse_optionally_labeled_statement"]}
{"id": "C22", "title": "return only inside functions", "statement": "In every program part returned before the first error, every return statement is inside a function, method or arrow body.", "quantifier": "every text, every setting", "why_tests_cant": "A claim about every tree the parser can produce.", "anchors": ["src/lib.rs: parse_return_stmt", "src/lib.rs: parse_function_source_el"]}
{"id": "C23", "title": "Labels are not shadowed", "statement": "In everything the parser returns (a part from next or parse or an expression from parse_expression, also after errors), no labelled statement is nested inside another with the same label in the same function body.", "quantifier": "every text, every setting", "why_tests_cant": "A claim about every tree the parser can produce.", "anchors": ["src/lib.rs: parse_labelled_statement", "src/lib.rs: parse_function_source_el"]}
{"id": "C24", "title": "super and new.target only inside functions", "statement": "In every part returned before the first error, super and new.target occur only inside a function, method or arrow body.", "quantifier": "every text, every setting", "why_tests_cant": "A claim about every tree the parser can produce.", "anchors": ["src/lib.rs: parse_left_hand_side_expr", "src/lib.rs: parse_left_hand_side_expr_allow_call", "src/lib.rs: parse_new_expr"]}
{"id": "C25", "title": "One constructor per class", "statement": "In everything the parser returns (a part from next or parse or an expression from parse_expression, also after errors), every class body has at most one constructor; it is not computed, is named `constructor` and is a function that is not a generator.", "quantifier": "every text, every setting", "why_tests_cant": "A claim about every tree the parser can produce.", "anchors": ["src/lib.rs: parse_class_body", "src/lib.rs: parse_class_el"]}
{"id": "C26", "title": "Accessor arity", "statement": "Without tolerance, in everything the parser returns (a part from next or parse or an expression from parse_expression, also after errors) every getter has no parameter and every setter has exactly one parameter, which is not a rest parameter.", "quantifier": "every text, module or script", "why_tests_cant": "A claim about every tree the parser can produce.", "anchors": ["src/lib.rs: parse_getter_method", "src/lib.rs: parse_setter_method"]}
{"id": "C27", "title": "One default per switch", "statement": "In everything the parser returns (a part from next or parse or an expression from parse_expression, also after errors), every switch statement has at most one default case.", "quantifier": "every text, every setting", "why_tests_cant": "A claim about every tree the parser can produce.", "anchors": ["src/lib.rs: parse_switch_stmt"]}
{"id": "C28", "title": "Template literals are well shaped", "statement": "In everything the parser returns (a part from next or parse or an expression from parse_expression, also after errors), every template literal and tagged template has exactly one more text piece than expressions, exactly the last piece is marked as tail, and the raw text of each piece is the source text of a template token.", "quantifier": "every text, every setting", "why_tests_cant": "Any number of substitutions, any nesting.", "anchors": ["src/lib.rs: parse_template_literal", "src/lib.rs: parse_template_element"]}
{"id": "C29", "title": "Rest parameters come last", "statement": "In everything the parser returns (a part from next or parse or an expression from parse_expression, also after errors), a rest parameter of a function or method is its last parameter.", "quantifier": "every text, every setting", "why_tests_cant": "A claim about every tree the parser can produce.", "anchors": ["src/lib.rs: parse_formal_params", "src/lib.rs: parse_rest_element"]}
{"id": "C30", "title": "Regular expressions keep their text", "statement": "For every regular expression literal in anything the parser returns (a part from next or parse or an expression from parse_expression, also after errors), '/' followed by its pattern, '/' and its flags is the source text of the token, and the flags contain no '/'.", "quantifier": "every text, every setting", "why_tests_cant": "Any pattern text, including multi-byte characters and slashes in classes.", "anchors": ["src/lib.rs: parse_primary_expression"]}
{"id": "C31", "title": "Parsing context does not leak between parts", "statement": "After every Ok result of next the parsing context that was in force before is in force again: strictness, function body, iteration, switch, labels, await and whether `in` is allowed.", "quantifier": "every state, every text", "why_tests_cant": "Each save/restore pair has to be right on every successful path.", "anchors": ["src/lib.rs: Context", "src/lib.rs: parse_function_source_el", "src/lib.rs: parse_class_decl", "src/lib.rs: parse_for_stmt"]}
{"id": "C32", "title": "'use strict' has no effect", "statement": "A 'use strict' directive never makes the parser strict: a parser that has reported no error is not strict between parts whatever directives it has read, and reading a directive, or the whole prologue of a function body, leaves strictness as it was; statements forbidden in strict code are accepted after the directive.", "quantifier": "every text, every setting, every state", "why_tests_cant": "A claim that no execution changes a flag.", "anchors": ["src/lib.rs: parse_directive", "src/lib.rs: parse_class_decl", "src/lib.rs: Context"]}
{"id": "C33", "title": "Builder and Parser::new agree", "statement": "Parser::new(text) equals Builder::new().js(text).build(); each Builder setter changes only its own setting and the last call wins.", "quantifier": "every text, every sequence of setter calls", "why_tests_cant": "Any sequence of calls.", "anchors": ["src/lib.rs: Builder", "src/lib.rs: Parser::new", "src/lib.rs: Parser::build"]}
{"id": "C34", "title": "Directives form a prefix", "statement": "In every program, directives occur only before all other parts. Elsewhere, also in what is returned after errors, a directive stands directly in a function body, and only directives and expression statements precede it there (an expression statement can: `function f(){'a'+b; 'c'}` has the directive 'c'). Each directive carries the source text of a string token and that text without the quotes around it, all of them.", "quantifier": "every text, every setting", "why_tests_cant": "A claim about every tree the parser can produce.", "anchors": ["src/lib.rs: next_part", "src/lib.rs: parse_directive", "src/lib.rs: parse_directive_prologues"]}
{"id": "C35", "title": "A dot at the end of the text is accepted", "statement": "Take any printable program followed by any printable expression (of member-access strength) and a dot, and end the text there: it is accepted, the tree is the program followed by a member access to that expression, and the property name is the text of the end-of-file item, i.e. empty.", "quantifier": "every program, every expression and every layout", "why_tests_cant": "It is about the end-of-file token being consumed as a name by any caller of the name parser.", "anchors": ["src/lib.rs: parse_ident_name", "src/lib.rs: parse_left_hand_side_expr_allow_call"]}
{"id": "C36", "title": "Trees are built from the tokens that were read", "statement": "The names and literals of the parts returned before the first error, taken in source order, are the texts of items of the input in the same order: each identifier, number, string, regular expression and template piece in the tree is the source text of one item (a keyword used as a name may be spelled by the keyword), and no item is used twice. In parts and expressions returned after errors each name and literal is still the source text of an item.", "quantifier": "every text, every setting", "why_tests_cant": "Relates every tree to its token sequence.", "anchors": ["src/lib.rs: parse_statement_list_item", "src/lib.rs: parse_expression", "src/lib.rs: parse_pattern"]}
{"id": "C37", "title": "Programs survive printing and parsing", "statement": "Take any tree of program parts that the printer accepts (functions, generators, async functions and arrow functions, classes, patterns, all statements and expressions, imports and exports); print it with the parentheses, braces and semicolons it needs; lay the pieces out as text with any white space and line breaks (except the line breaks the syntax forbids; if the program uses the prefix async, line feeds have to be the only line terminators in names and literals): building a parser for that text and calling parse returns exactly that tree, in script and in module mode, tolerant or not. Hence two trees with the same text are equal.", "quantifier": "every program tree of the covered sub-language, of any size and depth, and every layout", "why_tests_cant": "Unboundedly many trees.", "anchors": ["src/lib.rs: parse_expression", "src/lib.rs: parse_assignment_expr", "src/lib.rs: parse_conditional_expr", "src/lib.rs: parse_binary_expression", "src/lib.rs: parse_statement", "src/lib.rs: parse_script", "src/lib.rs: parse_module"]}
{"id": "C38", "title": "Every accepted program is derivable", "statement": "The parts of every successful parse are derived by the declarative grammar of the accepted language (Spec/Grammar) from the items of the text that are not comments, and the derivation consumes all of them up to the end of file.", "quantifier": "every text, every setting", "why_tests_cant": "The grammar has infinitely many sentences and the parser infinitely many inputs; a test shows a tree for one input, not that no input is given a tree the grammar does not allow.", "anchors": ["src/lib.rs: parse", "src/lib.rs: parse_statement_list_item", "src/lib.rs: parse_expression"]}
{"id": "C39", "title": "Every program of the accepted-program grammar is parsed to its tree", "statement": "A declarative grammar whose rules describe programs of ordinary and module code (expressions, functions, generators, async functions and methods, await and yield, classes, patterns, all statements, imports and exports, with automatic semicolons) is contained in the accepted language: the parser accepts every program of the grammar, whatever the setting of tolerance, and returns exactly the tree of the derivation. In particular no text has two trees in the grammar.", "quantifier": "every text whose items are derived by the grammar, every setting", "why_tests_cant": "Unboundedly many programs, and acceptance depends on no combination of constructs interfering with another.", "anchors": ["src/lib.rs: parse", "src/lib.rs: parse_statement_list_item", "src/lib.rs: parse_statement", "src/lib.rs: parse_assignment_expr", "src/lib.rs: parse_expression"]}
{"id": "C40", "title": "Only targets are assigned to", "statement": "Without tolerance, wherever an assignment or an increment or decrement occurs in anything the parser returns (a part from next or parse or an expression from parse_expression, also after errors), its left side or operand is an expression the parser counts as a target, by a rule on trees: in particular never a literal, this, a call, new, an operator expression, an update, a conditional, a class, an arrow function with an expression body, an object with methods or accessors, or an array or object pattern that contains one of these.", "quantifier": "every text, every place in the tree", "why_tests_cant": "The parser decides with a mutable flag that every expression function sets, saves or restores; a leak shows only for particular nestings.", "anchors": ["src/lib.rs: parse_assignment_expr", "src/lib.rs: parse_update_expr", "src/lib.rs: inherit_cover_grammar", "src/lib.rs: isolate_cover_grammar"]}
{"id": "C41", "title": "Class code is strict", "statement": "Without tolerance, anywhere inside a class in anything the parser returns, also after errors (heritage, computed keys and nested functions included) there is no with statement, no delete of a plain name, no increment or decrement of eval or arguments, no assignment to eval, arguments or a word reserved in strict code, and no declaration of eval or arguments by let, const or at the head of a loop.", "quantifier": "every text, every class, every place inside it", "why_tests_cant": "Strictness is a mutable flag saved and restored along every nesting of functions, arrows, methods and classes.", "anchors": ["src/lib.rs: parse_class_decl", "src/lib.rs: parse_class_body", "src/lib.rs: parse_with_stmt", "src/lib.rs: parse_unary_expression", "src/lib.rs: parse_update_expr", "src/lib.rs: parse_assignment_expr", "src/lib.rs: parse_lexical_binding", "src/lib.rs: parse_variable_decl"]}
{"id": "C42", "title": "Later text cannot change earlier results", "statement": "Take two texts that agree on a prefix (not cut in the middle of a CR LF), and suppose the scanner yields the same items on both up to some item that is not a comment, all of them inside the prefix. Any sequence of calls of next, parse and parse_expression on a parser of the first text that leaves this item unread (not even as the look-ahead) returns exactly the same parts, programs, expressions and errors, with the same positions, on a parser of the second text, and delivers the same comments.", "quantifier": "every pair of texts with a common prefix, every settings, every sequence of calls", "why_tests_cant": "Pairs of texts are compared; the line table is built from the whole text, and the parser peeks ahead in the scanner in several places.", "anchors": ["src/lib.rs: next_item", "src/lib.rs: update_positions", "src/lib.rs: get_item_position", "src/lib.rs: get_lines", "src/lib.rs: at_async_function", "src/lib.rs: at_import_call", "src/lib.rs: at_lexical_decl"]}
{"id": "C43", "title": "Comments do not influence parsing", "statement": "In a text whose line terminators are LF and CR LF, CR LF only between items, and in which no comment comes right after the word async, every sequence of calls returns the same results whether or not the scanner reports the comments: the same parts, programs and expressions, and the same errors, except for the position in errors that carry the position of the previous item.", "quantifier": "every text, every settings, every sequence of calls", "why_tests_cant": "Comments may stand between any two tokens of any construct; the claim compares two runs.", "anchors": ["src/lib.rs: next_item", "src/lib.rs: update_positions", "src/lib.rs: at_async_function", "src/lib.rs: at_import_call", "src/lib.rs: at_lexical_decl"]}
{"id": "C44", "title": "Tolerance suppresses only listed errors", "statement": "If a call of next, parse or parse_expression fails without tolerance, then either the error is on a short list (a missing comma or closing parenthesis, accessor arity, a second _proto_, the restrictions of strict code, assignment targets, a class or function declaration in a wrong place; ParseAfterEoF while looking for a comma), or the call with tolerance fails with exactly the same error, at the same position, with the same comments delivered. So a text that only the tolerant parser accepts is reported by the other one with an error of the list.", "quantifier": "every text, every state, every call", "why_tests_cant": "Every error site of the parser has to be compared in two runs; a new early return on the tolerance flag anywhere would break it.", "anchors": ["src/lib.rs: tolerate_error", "src/lib.rs: parse_args", "src/lib.rs: parse_assignment_expr", "src/lib.rs: parse_if_stmt", "src/lib.rs: parse_unary_expression"]}
{"id": "C45", "title": "Module mode only adds errors about await", "statement": "If a text is rejected as a module then it is rejected as a script with the same error at the same position, unless the error points to an identifier `await` of the text where the name of a declaration is expected. So if only script mode accepts a text then the error of module mode is of this kind.", "quantifier": "every text, every tolerance setting", "why_tests_cant": "The module flag could be consulted by any function; the claim compares two runs on every text.", "anchors": ["src/lib.rs: parse_var_ident", "src/lib.rs: parse_primary_expression"]}
{"id": "C46", "title": "Errors do not point back", "statement": "The token blamed by an UnexpectedToken error of next, parse or parse_expression is the look-ahead when that call began, or comes later in the text; it is never a comment. Its offset is at or after the start of the failing part, also for calls made after earlier errors.", "quantifier": "every text, every state a user can reach, every call", "why_tests_cant": "Functions keep items in local variables across nested calls and report them much later.", "anchors": ["src/lib.rs: expected_token_error", "src/lib.rs: unexpected_token_error", "src/lib.rs: next_item"]}
{"id": "C47", "title": "Only tokens and line breaks matter", "statement": "Let two texts whose line terminators are LF and CR LF, CR LF only between items, have the same sequence of tokens and comments: equal in kind and in source text, with a line break before them in both texts or in neither, and two of them on the same line of one text exactly if they are on the same line of the other; no token starts at a line feed. Then any sequence of calls of next, parse and parse_expression returns on both texts the same trees, and errors of the same kind with the same message at the same token (the positions may differ). The comment handler receives the same comments. White space, indentation, columns and line numbers have no other influence.", "quantifier": "every pair of texts, both tolerance settings, scripts and modules, every sequence of calls", "why_tests_cant": "Positions are computed incrementally, compared with each other (async function) and used as keys of a table; every pair of layouts would have to be tried.", "anchors": ["src/lib.rs: next_item", "src/lib.rs: update_positions", "src/lib.rs: at_async_function", "src/lib.rs: get_item_position"]}
{"id": "C48", "title": "Every else belongs to the nearest if", "statement": "Without tolerance, in everything the parser returns (a part from next or parse or an expression from parse_expression, also after errors), the statement between an if and its else does not end with an if that has no else (directly, or as the last statement of loops, with statements, labels and alternatives).", "quantifier": "every text, scripts and modules, every if statement in the trees", "why_tests_cant": "The nesting between the if and the else is unbounded and passes through seven kinds of statements.", "anchors": ["src/lib.rs: parse_if_stmt", "src/lib.rs: parse_if_clause"]}
{"id": "C49", "title": "await only inside async functions", "statement": "Every await expression in the parts returned before the first error is inside an async function or method; a named function that is not async, also in what is returned after errors, contains none outside inner async functions, even inside an async function.", "quantifier": "every text, every setting, every node", "why_tests_cant": "The await flag is saved and restored by every function; an early exit or a missing reset would leak it to any later text.", "anchors": ["src/lib.rs: parse_unary_expression", "src/lib.rs: parse_function_decl", "src/lib.rs: parse_function_expr", "src/lib.rs: parse_async_property_method"]}
{"id": "C50", "title": "Normal form of expressions", "statement": "In everything the parser returns (a part from next or parse or an expression from parse_expression, also after errors) a sequence has at least two elements, the property of a member expression that is not computed is a name, unary operators are prefix operators, arrow functions are never generators, and their expression flag tells the form of the body. No parameter of an arrow function has a yield expression as its default.", "quantifier": "every text, every setting, every node of the trees", "why_tests_cant": "Sequences and arrow functions are built in several functions from partially read groups of any nesting.", "anchors": ["src/lib.rs: parse_expression", "src/lib.rs: parse_group_expr", "src/lib.rs: parse_for_stmt", "src/lib.rs: parse_assignment_expr", "src/lib.rs: reinterpret_as_cover_formals_list"]}
{"id": "C51", "title": "Spread elements only in lists", "statement": "In everything the parser returns (a part from next or parse or an expression from parse_expression, also after errors) spread elements are only elements of arrays and array patterns, arguments of calls and new, properties of objects, or parameters of arrow functions.", "quantifier": "every text, every setting, every node of the trees", "why_tests_cant": "Spread elements are also moved between trees when arrow parameters are reinterpreted.", "anchors": ["src/lib.rs: parse_spread_element", "src/lib.rs: parse_async_args", "src/lib.rs: reinterpret_expr_as_pat"]}
{"id": "C52", "title": "Members, names and initializers of declarations", "statement": "In everything the parser returns (a part from next or parse or an expression from parse_expression, also after errors) class members are methods, accessors or constructors whose value is an unnamed function, class declarations among statements have a name, declarations of array and object patterns by var and let have an initializer except in loop heads, and the variable of a for-in or for-of loop declared by let or const has none.", "quantifier": "every text, every setting, every node of the trees", "why_tests_cant": "Declarations are read by functions with flags that depend on the context; the claim is about every declaration at any depth.", "anchors": ["src/lib.rs: parse_class_el", "src/lib.rs: parse_class_decl", "src/lib.rs: parse_variable_decl", "src/lib.rs: parse_lexical_binding", "src/lib.rs: parse_for_stmt"]}
{"id": "C53", "title": "Results after errors are phrases of the grammar", "statement": "Whatever calls came before, failed ones included, a part that next returns is derivable in the grammar from the items the parser had not consumed, in the environment the parser was in (strict, async, function body, labels; for texts without the word get also whether yield is an operator), and the items that remain are those after the phrase; likewise the expression of parse_expression and all parts of parse, which leaves nothing but the end of file. The environment itself is not reset by errors, so such a phrase can be one that is only allowed inside a function.", "quantifier": "every text, every setting, every history of calls, every reachable state", "why_tests_cant": "Histories of calls after errors are unbounded and the state an error leaves depends on where in the recursion it was raised.", "anchors": ["src/lib.rs: Parser::next", "src/lib.rs: Parser::parse", "src/lib.rs: parse_expression", "src/lib.rs: next_part"]}
{"id": "C54", "title": "Brackets of accepted texts are balanced", "statement": "Without tolerance, if parse succeeds then the parentheses, square brackets and braces of the text are balanced: read from left to right, every closing bracket closes the innermost open one, and none is left open. Likewise for the items that make up a part returned by next, also after errors, and an expression returned by parse_expression. Assumed: every bracket is spelled by one character, no bracket directly follows a dot, import is followed by a string or a parenthesis, and export by neither an opening brace nor a star; in those places the parser takes any item for a name, so that 'a.)' is accepted. With tolerance 'while (a b' is accepted.", "quantifier": "every text that meets the assumptions, module or script, every history of calls", "why_tests_cant": "Nesting is unbounded and brackets are consumed in some sixty places of the parser; a missing check for a closing bracket shows only on a text that lacks it there.", "anchors": ["src/lib.rs: Parser::parse", "src/lib.rs: expect_punct", "src/lib.rs: parse_group_expr", "src/lib.rs: parse_for_stmt", "src/lib.rs: parse_ident_name"]}
{"id": "C55", "title": "Error messages are unambiguous and point at an item", "statement": "If two errors are shown by the same text (Display), they are of the same kind, carry the same position and the same texts; two errors returned by calls of any two parsers that are shown by the same text are equal, except that the message of an UnexpectedToken error is only determined as a text. In a text whose line terminators are LF and CR LF, CR LF only between items, and in which no item starts with a line terminator, the position that an error of any kind carries is the line and column of an item of the source, or the start of the text.", "quantifier": "every pair of errors, every rendering of tokens by ress, every sequence of calls, failed ones included", "why_tests_cant": "Injectivity of the rendering is a statement about all pairs of errors, and the position claim quantifies over all failing executions.", "anchors": ["src/error.rs: impl Display for Error", "src/lib.rs: impl Display for Position", "src/lib.rs: expected_token_error", "src/lib.rs: unexpected_token_error", "src/lib.rs: redecl_error", "src/lib.rs: reinterpret_error"]}
{"id": "C56", "title": "No arrow-parameter placeholder is left in a program", "statement": "Expr::ArrowParamPlaceHolder is an intermediate result: it stands for a parenthesised list until the => is read. If parse succeeds on a text in which no comma is directly followed by ')' or '...', no such node occurs anywhere in the returned program, with or without tolerance. A part returned by next, or an expression returned by parse_expression, on such a text, also after errors, contains a placeholder only if the next item is =>, and then the next call of next fails. Assumed: every => item is spelled '=>'. Without the condition on commas it fails: '(a,) + 1' and '(a, ...b) + 1' are accepted, and the placeholder is an operand of the sum.", "quantifier": "every text that meets the conditions, every setting, every history of calls", "why_tests_cant": "A placeholder is created in six places and consumed in one; that it cannot escape through any of the some hundred phrases that contain expressions needs an invariant over all derivations, not sample programs.", "anchors": ["src/lib.rs: parse_group_expr", "src/lib.rs: parse_left_hand_side_expr_allow_call", "src/lib.rs: parse_assignment_expr", "src/lib.rs: reinterpret_as_cover_formals_list"]}
{"id": "C57", "title": "The language of classic JavaScript, without objects, is read exactly by the book", "statement": "Take a text, well-formed or not, made of names, numbers, strings, regular expressions, templates without substitutions, true, false, null, all punctuators except '...', '=>', '@' and '#', and the keywords var, let, const, if, else, for, while, do, with, switch, case, default, break, continue, return, throw, try, catch, finally, debugger, function, new, this, typeof, void, delete, in, instanceof. Suppose: no item is spelled async or await; '{' is not where an object literal would be (it follows ';', '{', '}', ')', else, do, try, catch or finally, or starts the text); no string follows '{', starts the text or starts a line, no template starts a line; '.' is followed by a name, var not by '[', a comma neither by ')' nor '[', new neither by '.' nor new; parameters of functions and catch are plain names; a line starts with nothing that could continue the line before, nor with ';'; after for no item is spelled of and no ';' is followed by '{'; after const no item is spelled of; let is followed neither by '[' nor by let, const neither by '[' nor by in; a name after let is on the same line; let after '(' is followed by a name; and, if there are functions in the text, there are no array literals, and what is assigned to, incremented or decremented is not in parentheses and does not end in a template. Without tolerance the parser accepts such a text and returns a tree if and only if the textbook grammar of the language gives the text that tree: precedence table of ECMAScript, ** to the right, unary and prefix operators, postfix on the same line, ?:, assignment to the right, comma, calls, members, tagged templates, new with and without arguments, arrays with holes, function expressions and declarations, var, let and const (the latter with a value, except in for-in; both only where a declaration may stand), blocks, if with the dangling else to the nearest if, while, do-while, for with its three parts, each of them optional, for-in with an expression or a declaration by var, let or const, with, labels that are not nested in themselves, break, continue, return inside functions and with its value on the same line, throw, switch with at most one default, try; statements end with ';', a new line, '}' or the end. That grammar gives a text at most one tree. Quirks included: an assignment or sequence in parentheses can be assigned to, and so can a template, or one with a tag that can; keywords can be names of variables declared by var; let is a name in expressions, in modules too; null is accepted nowhere; functions without names are statements; try needs no clause; throw may be followed by a new line; break and continue may stand outside loops; the left side of for-in is any expression without in, assignable or not; in the first part of for, the operator in is excluded from declarations and from the first expression of a sequence only.", "quantifier": "every text over the vocabulary, of any length and nesting, accepted or not, script or module", "why_tests_cant": "It is an equivalence between the recursive-descent code and a declarative grammar: the wrong direction (a text outside the language that is accepted) is about infinitely many texts for which there is no derivation.", "anchors": ["src/lib.rs: parse", "src/lib.rs: parse_statement", "src/lib.rs: parse_expression", "src/lib.rs: parse_binary_expression", "src/lib.rs: parse_assignment_expr", "src/lib.rs: parse_group_expr", "src/lib.rs: parse_array_init", "src/lib.rs: parse_new_expr", "src/lib.rs: parse_function_decl", "src/lib.rs: parse_function_expr", "src/lib.rs: parse_labelled_statement", "src/lib.rs: parse_switch_stmt", "src/lib.rs: parse_try_stmt", "src/lib.rs: parse_return_stmt", "src/lib.rs: consume_semicolon", "src/lib.rs: parse_if_stmt", "src/lib.rs: parse_for_stmt"]}
{"id": "C58", "title": "yield expressions occur only in generators and methods", "statement": "In a text without the word get, every yield expression in the parts returned before the first error is inside a generator function or inside the value of a method (all methods: the parser makes yield an operator in each of them, not only in generator methods). A named function that is not a generator contains no yield expression except inside inner generators or methods, wherever it stands, also in what is returned after errors. Why the word get is excluded: a getter of a class leaves yield an operator for the rest of the text, so that class A { get x() {} } yield a is read with a yield expression at the top.", "quantifier": "every text without the word get, every setting; for named functions also every history of calls", "why_tests_cant": "The flag allow_yield is switched and restored at many places of a recursion of unbounded depth; a restore that is missing on one path shows only for a yield after that path, as it does for getters.", "anchors": ["src/lib.rs: parse_yield_expr", "src/lib.rs: parse_function_decl", "src/lib.rs: parse_function_expr", "src/lib.rs: parse_generator_method", "src/lib.rs: parse_property_method", "src/lib.rs: parse_async_property_method", "src/lib.rs: parse_getter_method", "src/lib.rs: parse_class_el", "src/lib.rs: parse_assignment_expr"]}
{"id": "C59", "title": "What follows a part is read as if it were a text of its own", "statement": "Take two parsers with the same settings, each of which has returned some parts of its text (or none), and let the items left in front of them agree in kind, text and line breaks. Whatever next, parse and parse_expression return on the first from now on, beginning with a call of next or parse, they return on the second too: the same trees, errors at the same items, and the same further comments to the handler. In particular a text is a program with the parts ps followed by qs, where ps have been read, exactly if a text that consists of the items left is a program with the parts qs. Conditions: the first item left is neither a string (at the head of a text it would be a directive) nor the end of file, no item is get (see C58), no string item is use strict without quotes.", "quantifier": "all pairs of texts, all parts read before, all sequences of calls afterwards, every setting", "why_tests_cant": "The claim says that of the parser's thirteen context flags, its label set and its positions nothing that an arbitrary beginning of the text has left behind can influence the rest; tests compare particular beginnings with particular rests. Where a flag does leak (allow_yield after a getter of a class, allow_strict_directive after a function expression) the claim needs a condition or a proof that the leak is without effect.", "anchors": ["src/lib.rs: impl Iterator for Parser (next)", "src/lib.rs: parse", "src/lib.rs: parse_statement_list_item", "src/lib.rs: parse_directive", "src/lib.rs: Context", "src/lib.rs: next_item"]}
{"id": "C60", "title": "Trees are linear in the text", "statement": "The parts returned before the first error have together at most six components (nodes, names, literals, slots of arrays) for each item of the text that is not a comment. Anything a call of next or parse_expression returns, also after errors, has at most six components for each item of the text. The factor is reached: in ({a b c}), read by a tolerant parser, each name makes six.", "quantifier": "all texts, all sequences of calls, every setting; any scanner that delivers items in order and ends with the end of file", "why_tests_cant": "The parser copies trees: cover grammars are read as expressions and rebuilt as patterns or parameters, short properties put a name in both key and value, and look-ahead is restarted from saved positions. That no combination of these, nested to any depth, duplicates a subtree with all that is below it is a bound over all texts; a test sees the size of particular trees.", "anchors": ["src/lib.rs: reinterpret_expr_as_pat", "src/lib.rs: reinterpret_as_cover_formals_list", "src/lib.rs: parse_obj_prop", "src/lib.rs: parse_array_init", "src/lib.rs: parse_property_pattern", "src/lib.rs: impl Iterator for Parser (next)", "src/lib.rs: parse_expression"]}
{"id": "C61", "title": "Names, strings, numbers, regular expressions and templates are opaque", "statement": "Call identifiers, strings, numbers, regular expressions and the pieces of templates the words of a text. Let the second of two texts be the first with every word w replaced by r(w): the same sequence of kinds of tokens and of comments, the same line breaks between them, and the text of everything else unchanged. Let r give different words to different words and leave keywords and the words the parser compares with (async, await, get, set, static, constructor, prototype, eval, arguments, of, as, from, target, the reserved words, and the unquoted _proto_ and use strict). Then any sequence of calls of next, parse and parse_expression returns on the second text the trees it returns on the first with every word replaced by r - identifiers, properties after a dot, keys, labels, imported and exported names, string and number literals, directives, sources of modules, regular expressions, template pieces - and fails where it fails on the first, with an error of the same kind at the same token. In particular either both texts are programs, with trees that differ in these words only, or neither is. The comment handler receives the same comments.", "quantifier": "every pair of texts, every such renaming, both tolerance settings, scripts and modules, every sequence of calls; any scanner and any classification of restricted words that does not tell w from r(w)", "why_tests_cant": "Words are compared in many places: with reserved words, with contextual keywords, with the labels in force, with the keys seen so far, with directives, and with each other through cover grammars. That no other comparison affects a result, in any nesting, is a statement about all words and all texts; a test compares two particular ones.", "anchors": ["src/lib.rs: parse_ident_name", "src/lib.rs: parse_var_ident", "src/lib.rs: at_contextual_keyword", "src/lib.rs: parse_labelled_statement", "src/lib.rs: is_key", "src/lib.rs: at_async_function", "src/lib.rs: is_restricted", "src/lib.rs: parse_break_stmt", "src/lib.rs: parse_directive", "src/lib.rs: parse_object_property_key", "src/lib.rs: parse_module_specifier", "src/lib.rs: is_proto_", "src/lib.rs: parse_template_element"]}
{"id": "C62", "title": "Lines of classic programs may be broken and joined", "statement": "Take a text as in C57 that the parser accepts without tolerance, and a second text with the same tokens, of the same spelling, that has a line break wherever the first has one (it may leave it out directly after a punctuator other than ')', ']', '}', '++' and '--', and before the first token), and possibly more: but no additional line break before a token that may not begin a line in C57 (a binary operator, an assignment, '++', '--', '.', ',', ';', '(', '[', '?', ':', '+', '-', a string, a template, in, instanceof), and none directly after return, break, continue or let. Comments, blanks and positions may differ in any way. Then the parser accepts the second text, too, and returns the same tree. Hence two texts each of which is related to the other in this way (they differ in line breaks directly after such punctuators only, before tokens that may begin a line) are both accepted, with the same tree, or both rejected.", "quantifier": "every accepted text of C57, every way to break its lines further or to join them at such places", "why_tests_cant": "The line-break flag is read at a few places deep in the recursive descent; that it does not matter anywhere else holds of all texts, all nestings and all sets of additional and omitted breaks.", "anchors": ["src/lib.rs: parse", "src/lib.rs: consume_semicolon", "src/lib.rs: parse_update_expr", "src/lib.rs: parse_return_stmt", "src/lib.rs: parse_optionally_labeled_statement", "src/lib.rs: next_item"]}
