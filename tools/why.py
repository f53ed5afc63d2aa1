"""Why unit tests cannot settle each property; read by mkprops.py."""
WHY = {
"C01": "A token can be lost or changed at any place of any construct, and constructs nest without bound; a round-trip test only shows that the items it lists survive, and the seven places where tokens are lost were found by looking at all of them.",
"C02": "The items are an infinite family of trees with lists of any length; a comma flag or a span that is wrong for some combination of optional parts shows only on that combination.",
"C03": "It relates two runs of the parser on an input that is itself an output; the failing inputs (`pub crate!{}`, a static named `mut`) are odd enough that no list of examples has them.",
"C04": "A hang would only show on the particular input that triggers it.",
"C05": "Requires all paths of the parser to be covered, for every state in which each unreachable!() arm could be entered.",
"C06": "It must hold after every outcome at every possible stopping point, with anything whatever behind it; tests look at the item that is returned, hardly ever at what is left in the iterator.",
"C07": "It quantifies over all continuations of all inputs: two runs on different streams have to be compared, for infinitely many pairs.",
"C08": "The claim about leftover tokens is about every suffix after every item, also when the item was an error.",
"C09": "That Err is returned only for this reason is a statement about all inputs for which it is not returned; examples can show that one input gives an error, not that no other does.",
"C10": "Discriminants are arbitrary token trees, with groups of any content, at any position in an enum of any length.",
"C11": "That no other word leads to a given variant is a claim about all identifiers, after every possible sequence of attributes and every visibility.",
"C12": "A token lost by the attempt to read a function would show only for the combination of qualifiers and follow-up on which the attempt stops at that token; all combinations with all continuations have to be compared with a parse from the start.",
"C13": "The cut depends on the whole run before it (the number of open angle brackets, the last dash), so that any finite set of runs leaves out most states of the scan.",
"C14": "Lists of any length, each element with its own attributes, visibility and type of any size; an error at the last element or with an empty list is typical of the cases a sample leaves out.",
"C15": "Three functions have to agree on structs with any number of fields; an index that is off by one for long tuples or a field skipped in one of them would not show in the two or three fields of a test.",
"C16": "A partition must hold of every parameter in lists of any length, and of declarations obtained by any history of edits.",
"C17": "It is an invariant over all sequences of calls on all declarations; tests make one or two calls.",
"C18": "Any number of edits, on any declaration, with any arguments, followed by a parse: a doubled or missing comma depends on how the list ended before.",
"C19": "That nothing else changes is a statement about every part of every declaration, whatever number of predicates it has.",
"C20": "One bound for each type parameter and for nothing else, in lists of any length and mixture of kinds, with any trait given as tokens.",
"C21": "Parameter lists of any length and mixture of kinds; that to_owned_args never panics is a claim about all of them.",
"C22": "A history-quantified data structure property.",
"C23": "Exactly when: all lists, all indices, on both sides of the boundary.",
"C24": "The unreachable!() in the Debug code is reached or not depending on what the parser can return for any input at any depth.",
"C25": "Each of about sixty token fields has to be right for every input at any depth, and fields that exclude each other must do so for every item that any input leads to.",
"C26": "The types are arbitrary token sequences; the one token that is dropped depends on where the last comma of an argument list stands.",
"C27": "Paths are trees (arguments contain types, which contain paths) of any size; the failures depend on the spacing of a colon, which source-level tests do not vary.",
"C28": "Exactly when: attributes with any path and any value, including paths with the same identifier in unusual places.",
"C29": "History-quantified: any sequence of constructions and combine calls, with the order of all messages in the output.",
"C30": "An invariant over all histories of the API; a test can only show that some histories keep it.",
"C31": "That such a declaration panics whatever its attributes, visibility, type and value is a claim about all of them; a test shows one.",
"C32": "Bounds are arbitrary token runs in any parameter of any declaration; whether an arrow is harmless depends on the angle brackets around it.",
"C33": "Initialisers are arbitrary token runs; which of them are read depends on the balance of their angle brackets at every point.",
"C34": "Defaults may come in any parameter of any declaration, with any type as the default.",
"C35": "That no continuation of the input makes it parse, at the top level or as a member at any depth, is a claim about infinitely many inputs.",
"C36": "That no function and no method with such a parameter is ever read is a negative claim about all inputs.",
"C37": "Visibility and type meet in a way that depends on the first tokens of the type, in every field of every struct and variant.",
"C38": "Both sides are arbitrary token runs; where the split comes depends on every colon in the left one.",
"C39": "It is about every token of lists of any length, each parameter with any attributes, pattern and type.",
"C40": "Bodies hold any number of items of any kind and depth; that a member is read as at the top level relates two runs for every one of them.",
"C41": "Any depth of modules around the enum.",
"C42": "Exactly when: enums with any number of variants, variants with any number of fields.",
"C43": "Every accessor on every variant, and for attributes_mut every list of attributes that may be put in; that only the prefix of the quoted item changes is a claim about all the rest of it.",
"C44": "It is about the first and last token of any node with any combination of missing parts, under both ways to join spans.",
"C45": "All names and all bounds as arguments; the difference in spacing is invisible in the printed text that tests compare.",
"C46": "The contents of macros are arbitrary token streams, and what comes after is arbitrary as well.",
"C47": "All groups, with all delimiters, contents and spans; the spans that get lost are not part of what tests compare.",
"C48": "That no attribute of the wrong kind is in any of the lists, at any depth, is a negative claim about all inputs.",
"C49": "That no body, however it is written, leads to another kind of member is a negative claim about all inputs.",
"C50": "Attributes hold arbitrary token streams; what is dropped depends on what comes after a group.",
"C51": "It relates the outcomes for every input and each of its infinitely many renamings, including the panics.",
"C52": "Any number of attributes with any contents, before any item; all of them have to be in the result, in order.",
"C53": "An equality of two infinite languages, and unambiguity of a grammar: neither can be sampled.",
"C54": "Two quantifiers over texts: every declaration and every pair of parameter lists, comparing the outcomes of two runs.",
"C55": "Two quantifiers over texts: every function and every pair of parameter lists, comparing the outcomes of two runs.",
"C56": "Two quantifiers over texts: every declaration and every pair of where clauses, comparing the outcomes of two runs.",
"C57": "All items, all traits, all members: what is written depends on the kinds and number of parameters and on how lists end.",
"C58": "Every item with every pair of prefixes, comparing the outcomes of two runs, also when they panic.",
"C59": "Every pair of items of a sort: the heads and bodies of all accepted texts are combined with each other.",
"C60": "All functions from types to types, applied at all places at every depth of all items.",
"C61": "Invisible groups cannot be written in the source of a test; they may be anywhere, around anything.",
"C62": "Exactly when: it separates the infinitely many items that come back from the infinitely many that do not.",
"C63": "Spans are the same for all tokens in unit tests outside of a macro, and the claim is about the first and last token of any item.",
"C64": "Each of about fifty messages can be caused at any place of any input, and what it says has to be true of that place; tests compare one message text with another.",
"C65": "It quantifies over all ways to continue an input, both for the claim that there is one and for the claim that there is none.",
"C66": "All inputs and all ways to place their tokens; two runs have to be compared, also when they panic.",
"C67": "All items and all combinations of changes at all depths, followed by quoting and parsing.",
"C68": "All pairs of texts and all places to cut; it relates the results for the parts and for the whole.",
"C69": "Every part at every depth of every item; in unit tests all tokens have the same span.",
"C70": "It is an equivalence over pairs of items: that no two different ones have the same text cannot be tested.",
"C71": "The grammar of Rust items is infinite; the rule of the documentation is about all of them.",
"C72": "All Rust items: that each part ends up where it belongs must hold for every combination of the optional parts.",
"C73": "All Rust types, to any depth; that none of the others is taken for a path, and that none panics, is a negative claim about infinitely many.",
"C74": "All Rust declarations with all edits: whether the output is Rust is a question about a grammar, which needs a compiler for each example.",
"C75": "All texts of a grammar and everything that can be made from them, round after round.",
"C76": "All items that can be put together by hand from parts of Rust, an infinite family of trees.",
"C77": "All changes of all attribute lists at all depths of all items.",
"C78": "All rewritings of types, in sequence, at all places at every depth.",
"C79": "Literals with a sign are only made by code, at any place and depth; for parsed items it is a negative claim about all inputs.",
"C80": "All functions that rewrite tokens, within stated limits, at all places at every depth.",
"C81": "A bound on the number of steps for all inputs; an exponential case may be an input that nobody has tried.",
"C82": "History-quantified, and combined with all files and bodies the report may be emitted with.",
"C83": "It compares the whole texts before and after, for all declarations and all sequences of calls.",
"C84": "All inputs and all ways to change the spacing at all depths; tests made with quote! or from text all have the same spacing.",
"C85": "That every token comes from somewhere is a claim about all tokens of all results, with spans, which are all the same in tests.",
"C86": "All strings as names, and all identifiers in all results.",
"C87": "All inputs, and all functions that the author of the macro may put in.",
"C88": "The rule is about all items that compile, of which any list of examples is a vanishing part.",
"C89": "All files, all runs of items at all depths of modules, and all texts in place of them.",
"C90": "The overflow needs 2^31 tokens, which no test has; termination and agreement with the model are about all inputs, both builds and all states of the iterator.",
"C91": "All nestings and all limits: the depth at which the stack ends differs from machine to machine.",
"C92": "That no token is moved or doubled is a claim about all tokens of all inputs at all depths.",
"C93": "Exactly when, for all token sequences: three outcomes are separated on an infinite domain.",
"C94": "A claim about the last token of all accepted inputs, and that all inputs with another last token panic, with any content of the fragment.",
"C95": "The items that users write under a derive are without bound in number, size and nesting; tests with some of them do not say that no other one panics.",
"C96": "Rust items of each kind are without bound in number, size and nesting; tests with some of them do not say that no other construct of Rust is a problem.",
"C97": "The members of a block are without bound in number and size, and each of them would have to be tried in each kind of block and on its own.",
"C98": "Parameter lists are without bound in length and their bounds without bound in size and nesting, and what follows them is arbitrary; a test of some lists cannot exclude that another one is misread.",
"C99": "Each `>` in each declaration would have to be tried, in types and bounds nested without bound; tests of some declarations cannot exclude that a stray bracket is accepted elsewhere.",
"C100": "Types and values are without bound in size and nesting and occur at every depth of an item; that none of them, wherever it is, ends in the middle of angle brackets cannot be seen from examples.",
"C101": "All pairs of token streams one of which begins with the other would have to be compared, and all ways to cut a file; the one ambiguity there is would hardly be found by trying.",
"C102": "All functions and all changes of them: that nothing else is in the way, and that every other change fails, is a claim about all texts of types and all functions around them.",
"C103": "All items with lists of any length and all fields and variants; whether a comma is printed after the field that was last depends on how the list ended, and whether that is harmless on the whole of its type.",
"C104": "All blocks with all lists of members: that neighbours and heads make no difference is a claim about all combinations.",
"C105": "All items and all texts that may be put in: that everything else fails is a claim about all texts.",
}
