{
 "claims": [
  {
   "property": "C01",
   "status": "proved",
   "theorems": [
    "Ressa.calls_return",
    "Ressa.build_returns",
    "Ressa.depth_bounded",
    "Ressa.recursion_equations"
   ],
   "note": "Arbitrary item list, arbitrary reachable state."
  },
  {
   "property": "C02",
   "status": "proved",
   "theorems": [
    "Ressa.build_succeeds",
    "Ressa.calls_do_not_panic"
   ],
   "note": "For every scanner output satisfying ScannerOk (Verif.Spec.Scanner)."
  },
  {
   "property": "C03",
   "status": "proved",
   "theorems": [
    "Ressa.part_consumes",
    "Ressa.parts_le_items"
   ],
   "note": ""
  },
  {
   "property": "C04",
   "status": "proved",
   "theorems": [
    "Ressa.none_iff_eof",
    "Ressa.none_forever"
   ],
   "note": ""
  },
  {
   "property": "C05",
   "status": "proved",
   "theorems": [
    "Ressa.parse_ok_iff",
    "Ressa.parse_err_iff"
   ],
   "note": ""
  },
  {
   "property": "C06",
   "status": "proved",
   "theorems": [
    "Ressa.errors_forever",
    "Ressa.stray_paren_forever",
    "Ressa.stray_paren_consumes_nothing"
   ],
   "note": ""
  },
  {
   "property": "C07",
   "status": "proved",
   "theorems": [
    "Ressa.module_decides_variant"
   ],
   "note": ""
  },
  {
   "property": "C08",
   "status": "proved",
   "theorems": [
    "Ressa.tolerant_next",
    "Ressa.tolerant_accepts"
   ],
   "note": ""
  },
  {
   "property": "C09",
   "status": "proved",
   "theorems": [
    "Ressa.script_next",
    "Ressa.script_accepts"
   ],
   "note": ""
  },
  {
   "property": "C10",
   "status": "proved",
   "theorems": [
    "Ressa.comments_delivered",
    "Ressa.comments_only_appended",
    "Ressa.all_comments_delivered"
   ],
   "note": ""
  },
  {
   "property": "C11",
   "status": "proved",
   "theorems": [
    "Ressa.items_read_in_order",
    "Ressa.items_not_put_back",
    "Ressa.nextItem_returns_look"
   ],
   "note": ""
  },
  {
   "property": "C12",
   "status": "proved",
   "theorems": [
    "Ressa.lines_cover",
    "Ressa.lines_starts",
    "Ressa.lone_cr_missed"
   ],
   "note": "lone_cr_missed is the counterexample outside the CrOk texts."
  },
  {
   "property": "C13",
   "status": "proved",
   "theorems": [
    "Ressa.position_correct",
    "Ressa.column_roundtrip"
   ],
   "note": "For CrOk texts and offsets not at a line terminator."
  },
  {
   "property": "C14",
   "status": "proved",
   "theorems": [
    "Ressa.unexpected_at_item",
    "Ressa.unexpected_position"
   ],
   "note": ""
  },
  {
   "property": "C15",
   "status": "proved",
   "theorems": [
    "Ressa.tracked_position",
    "Ressa.current_position",
    "Ressa.tracked_column_wrong"
   ],
   "note": "tracked_column_wrong is a counterexample for other line terminators."
  },
  {
   "property": "C16",
   "status": "proved",
   "theorems": [
    "Ressa.error_kinds"
   ],
   "note": "Error::Other is not built by the parser and is not in the model's error type."
  },
  {
   "property": "C17",
   "status": "proved",
   "theorems": [
    "Ressa.semicolon_iff",
    "Ressa.semicolon_consumed",
    "Ressa.semicolon_inserted",
    "Ressa.semicolon_missing"
   ],
   "note": ""
  },
  {
   "property": "C18",
   "status": "proved",
   "theorems": [
    "Ressa.operators_group",
    "Ressa.Gr.Groups.unique",
    "Ressa.Gr.Groups.exists"
   ],
   "note": ""
  },
  {
   "property": "C19",
   "status": "proved",
   "theorems": [
    "Ressa.powers_right",
    "Ressa.operands_are_chains"
   ],
   "note": ""
  },
  {
   "property": "C20",
   "status": "proved",
   "theorems": [
    "Ressa.no_postfix_after_line_break",
    "Ressa.postfix_same_line"
   ],
   "note": ""
  },
  {
   "property": "C21",
   "status": "proved",
   "theorems": [
    "Ressa.jump_label"
   ],
   "note": ""
  },
  {
   "property": "C22",
   "status": "proved",
   "theorems": [
    "Ressa.return_in_function"
   ],
   "note": ""
  },
  {
   "property": "C23",
   "status": "proved",
   "theorems": [
    "Ressa.labels_distinct"
   ],
   "note": ""
  },
  {
   "property": "C24",
   "status": "proved",
   "theorems": [
    "Ressa.super_in_function"
   ],
   "note": ""
  },
  {
   "property": "C25",
   "status": "proved",
   "theorems": [
    "Ressa.one_constructor",
    "Ressa.constructor_shape"
   ],
   "note": ""
  },
  {
   "property": "C26",
   "status": "proved",
   "theorems": [
    "Ressa.accessor_arity"
   ],
   "note": ""
  },
  {
   "property": "C27",
   "status": "proved",
   "theorems": [
    "Ressa.one_default"
   ],
   "note": ""
  },
  {
   "property": "C28",
   "status": "proved",
   "theorems": [
    "Ressa.template_shape",
    "Ressa.template_text"
   ],
   "note": ""
  },
  {
   "property": "C29",
   "status": "proved",
   "theorems": [
    "Ressa.rest_last"
   ],
   "note": ""
  },
  {
   "property": "C30",
   "status": "proved",
   "theorems": [
    "Ressa.regex_text"
   ],
   "note": ""
  },
  {
   "property": "C31",
   "status": "proved",
   "theorems": [
    "Ressa.next_keeps_context",
    "Ressa.collects_keeps_context",
    "Ressa.expression_keeps_context"
   ],
   "note": ""
  },
  {
   "property": "C32",
   "status": "proved",
   "theorems": [
    "Ressa.never_strict",
    "Ressa.directive_not_strict",
    "Ressa.prologue_not_strict"
   ],
   "note": ""
  },
  {
   "property": "C33",
   "status": "proved",
   "theorems": [
    "Ressa.new_eq_builder",
    "Ressa.last_setter_wins"
   ],
   "note": ""
  },
  {
   "property": "C34",
   "status": "proved",
   "theorems": [
    "Ressa.directives_first",
    "Ressa.directives_in_body",
    "Ressa.body_directives",
    "Ressa.directive_text"
   ],
   "note": ""
  },
  {
   "property": "C35",
   "status": "proved",
   "theorems": [
    "Ressa.dot_at_end",
    "Ressa.dot_at_end_text"
   ],
   "note": ""
  },
  {
   "property": "C36",
   "status": "proved",
   "theorems": [
    "Ressa.trees_spelled",
    "Ressa.leaf_spelled"
   ],
   "note": ""
  },
  {
   "property": "C37",
   "status": "proved",
   "theorems": [
    "Ressa.print_parse",
    "Ressa.print_expression",
    "Ressa.print_layout_parse",
    "Ressa.print_injective"
   ],
   "note": "The printer yields none for names spelled async, for keywords as binding names, and for trees no accepted text has. Printed expressions in some places carry more parentheses than needed."
  },
  {
   "property": "C38",
   "status": "proved",
   "theorems": [
    "Ressa.parse_sound",
    "Ressa.expression_sound"
   ],
   "note": "Derivability only; that the parser accepts every sentence of the grammar is not claimed."
  },
  {
   "property": "C39",
   "status": "proved",
   "theorems": [
    "Ressa.core_accepted",
    "Ressa.core_unique",
    "Ressa.core_expression"
   ],
   "note": "The grammar does not cover yield as a name, except for function expressions in strict mode."
  },
  {
   "property": "C40",
   "status": "proved",
   "theorems": [
    "Ressa.targets",
    "Ressa.fixed_not_assigned"
   ],
   "note": "Without tolerance. The rule on trees (Spec/Flags) contains the targets the parser accepts beyond the standard (assignments, sequences, templates, functions, await, yield); examples show them."
  },
  {
   "property": "C41",
   "status": "proved",
   "theorems": [
    "Ressa.class_strict"
   ],
   "note": "Without tolerance: in tolerant mode a class after a label is not strict."
  },
  {
   "property": "C42",
   "status": "proved",
   "theorems": [
    "Ressa.later_text_irrelevant",
    "Ressa.position_prefix"
   ],
   "note": ""
  },
  {
   "property": "C43",
   "status": "proved",
   "theorems": [
    "Ressa.comments_irrelevant",
    "Ressa.comments_irrelevant_converse",
    "Ressa.comments_same_program"
   ],
   "note": "comment_after_async shows why the condition on async is needed"
  },
  {
   "property": "C44",
   "status": "proved",
   "theorems": [
    "Ressa.tolerant_next_error",
    "Ressa.tolerant_expression_error",
    "Ressa.tolerant_error",
    "Ressa.only_tolerated",
    "Ressa.tolerant_build_error"
   ],
   "note": "Relational traversal of the whole parser (Props/Tolerance). The list Tolerated is an inductive predicate on errors; UnexpectedEoF and OperationError are on it only for scanners that do not meet ScannerOk."
  },
  {
   "property": "C45",
   "status": "proved",
   "theorems": [
    "Ressa.script_next_error",
    "Ressa.script_expression_error",
    "Ressa.script_error",
    "Ressa.only_await"
   ],
   "note": "Same traversal with the module flag. The message about await as an identifier is shown to be dead on the way (primaryIdent_eq)."
  },
  {
   "property": "C46",
   "status": "proved",
   "theorems": [
    "Ressa.blames_ahead",
    "Ressa.blames_offset"
   ],
   "note": "State invariant relative to the state in which the call began. The malformed-regex message, which carries the previous position, is excluded by hypothesis in blames_ahead and by error_kinds in blames_offset."
  },
  {
   "property": "C47",
   "status": "proved",
   "theorems": [
    "Ressa.layout_irrelevant",
    "Ressa.layout_same_program"
   ],
   "note": "Hypotheses on the two scans: SameTokens, NoLeadingBreak. Errors are at corresponding items; spacing_same is a concrete pair with an error."
  },
  {
   "property": "C48",
   "status": "proved",
   "theorems": [
    "Ressa.else_nearest"
   ],
   "note": "With tolerance an unclosed if is replaced by an if with an empty body, whatever follows."
  },
  {
   "property": "C49",
   "status": "proved",
   "theorems": [
    "Ressa.await_in_async",
    "Ressa.await_not_in_plain"
   ],
   "note": "Plain methods inherit the meaning of await from outside, hence the restriction to named functions in the second theorem. The await of for await is not an await expression and is accepted anywhere."
  },
  {
   "property": "C50",
   "status": "proved",
   "theorems": [
    "Ressa.expression_shapes",
    "Ressa.arrow_yield_default"
   ],
   "note": ""
  },
  {
   "property": "C51",
   "status": "proved",
   "theorems": [
    "Ressa.spread_places"
   ],
   "note": ""
  },
  {
   "property": "C52",
   "status": "proved",
   "theorems": [
    "Ressa.class_members",
    "Ressa.patterns_initialized"
   ],
   "note": "const is excluded from the second theorem: it needs no initializer before the word of."
  },
  {
   "property": "C53",
   "status": "proved",
   "theorems": [
    "Ressa.next_derivable",
    "Ressa.expression_derivable",
    "Ressa.parse_derivable"
   ],
   "note": "The line break before the look-ahead is part of s.pend. When parse returns no parts at all nothing is claimed but that."
  },
  {
   "property": "C54",
   "status": "proved",
   "theorems": [
    "Ressa.brackets_balanced",
    "Ressa.next_balanced",
    "Ressa.expression_balanced"
   ],
   "note": ""
  },
  {
   "property": "C55",
   "status": "proved",
   "theorems": [
    "Ressa.message_unambiguous",
    "Ressa.message_identifies",
    "Ressa.position_of_item"
   ],
   "note": "Display of errors and positions is modelled in Model/Display; the debug renderings of ress are arbitrary."
  },
  {
   "property": "C56",
   "status": "proved",
   "theorems": [
    "Ressa.no_placeholders",
    "Ressa.next_no_placeholders",
    "Ressa.expression_no_placeholders",
    "Ressa.next_arrow"
   ],
   "note": ""
  },
  {
   "property": "C57",
   "status": "proved",
   "theorems": [
    "Ressa.small_exact",
    "Ressa.small_unique"
   ],
   "note": "The sets of texts and trees agree in both directions; the texts are restricted by vocabulary and neighbours only, not by well-formedness."
  },
  {
   "property": "C58",
   "status": "proved",
   "theorems": [
    "Ressa.yield_in_generator",
    "Ressa.yield_not_in_plain",
    "Ressa.yield_after_get"
   ],
   "note": "Texts without the word get; the hypothesis is needed (yield_after_get)."
  },
  {
   "property": "C59",
   "status": "proved",
   "theorems": [
    "Ressa.pieces_alike",
    "Ressa.rest_is_text",
    "Ressa.program_in_pieces"
   ],
   "note": "Text without the item get; the first item left is neither a string nor the end of file."
  },
  {
   "property": "C60",
   "status": "proved",
   "theorems": [
    "Ressa.parts_linear",
    "Ressa.returned_linear"
   ],
   "note": "The bound counts components of the tree; parse_expression and calls after an error are bounded by all items, comments included."
  },
  {
   "property": "C61",
   "status": "proved",
   "theorems": [
    "Ressa.names_opaque",
    "Ressa.names_opaque_program"
   ],
   "note": "Errors are compared in kind and place, not in their messages."
  },
  {
   "property": "C62",
   "status": "proved",
   "theorems": [
    "Ressa.small_wrap",
    "Ressa.small_wrap_iff"
   ],
   "note": "Hypotheses on the two texts: SmallText and smallFirst for the first (see C57), Wrap for the pair. Demo.oneLine/manyLines and Demo.broken/joined are concrete pairs."
  }
 ]
}