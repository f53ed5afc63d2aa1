# Formal model of `venial` in Lean 4 — design

## 1. What is modelled

venial turns a `proc_macro2::TokenStream` into an AST (`parse_item`), lets the user inspect and edit the
AST, and turns it back into tokens (`quote!`).  The Lean model under `lean/Verif/` follows the Rust code
function by function:

| Lean module | Rust source |
|---|---|
| `Verif/Token.lean` | the part of `proc_macro2` that venial uses (token trees) — trusted base |
| `Verif/Ast.lean` | `src/types.rs` 31-862 (data types), `src/punctuated.rs` |
| `Verif/Error.lean` | `src/error.rs` |
| `Verif/Parser.lean` | `Peekable<IntoIter>`, panics, the `loop {}` construct |
| `Verif/ParseUtils.lean` | `src/parse_utils.rs` |
| `Verif/ParseType.lean` | `src/parse_type.rs` |
| `Verif/ParseFn.lean` | `src/parse_fn.rs` |
| `Verif/ParseImpl.lean` | `src/parse_impl.rs`, `src/parse_extern.rs`, `src/parse_mod.rs` |
| `Verif/Parse.lean` | `src/parse.rs` and the tying of the recursive knot |
| `Verif/Print.lean` | `src/types.rs` 1077-1688 (`ToTokens`, `Default`) |
| `Verif/Stream.lean` | what appending tokens to a `TokenStream` adds (`proc_macro2`): literals with a sign are split |
| `Verif/Edit.lean` | `src/types_edition.rs` |
| `Verif/Count.lean` | the parser of `src/parse*.rs` again, counting iterator operations and copied tokens (same results: C81) |
| `Verif/Machine.lean` | the parser of `src/parse*.rs` again, with `Peekable` iterators, the `i32` counter in debug and release builds, and the loops and recursion of the code without fuel (same results without 2³¹ `<` in one stream: C90) |
| `Verif/Debug.lean` | `{:?}`, `{:#?}` and `Display` formatting: `src/types.rs` 864-1073, the derived `Debug` implementations of `src/types.rs` and `src/punctuated.rs`, and those of `proc_macro2`'s tokens that they call |
| `Verif/Spec/*.lean` | specifications, written independently of the parser |
| `Verif/Lemmas/*.lean` | auxiliary lemmas |
| `Verif/Props/*.lean` | the property theorems, one namespace per property, each with witnesses |
| `Verif/Conformance.lean` | tests, generated by `tools/mkconformance.py`: the model run on the inputs of `src/tests.rs`; the formatted results are compared with the 111 snapshots under `src/snapshots` |
| `Verif/DocTests.lean` | the examples in the documentation of `/repo/src`, replayed in the model (by the kernel) |
| `Verif/Audit.lean` | fails the build if a declaration depends on an axiom outside the list below |

### Modelling decisions

* **Token streams** are `List TT`; a `TT` is a delimited group (delimiter, inner list, three spans
  open/close/entire), an identifier (string, span), a punctuation character (char, spacing, span) or a
  literal (text, span).  Spans are opaque identities (`Nat`), with a distinguished `call_site`.
* **`&mut Peekable<IntoIter>`** is a state: every parsing function is
  `List TT → Except Panic (α × List TT)`.  `tokens.clone()` + assignment (rollback) is saving and restoring
  the list.
* **Panics** are values of the type `Panic` (`unwrap` on `None`, `panic!`/`expect` with message, `assert!`,
  `unreachable!`, the two structured ones of `parse_item` and `parse_mod`).  The message text is that
  of the Rust message up to the interpolated `{:?}` of tokens; the tokens it would print are kept as tokens.
* **`loop {}`** is a fuelled combinator with fuel "number of tokens left + 1"; running out of fuel is a
  separate `Panic.fuel` value.  Recursion into nested groups uses fuel "nesting depth + 1".  Property C04
  shows `Panic.fuel` never occurs, so the fuel is not a bound on what is modelled.
* **What these three simplify** (the iterator as a list, the fuel, and the counter of open angle brackets as an unbounded integer instead of
  an `i32`) is undone in `Machine.lean`; C90 proves that both give the same for inputs in which no stream (the input or the
  contents of a group) has 2³¹ or more `<` directly in it.  All other properties are
  about the simpler parser, so for the code they are claimed for such inputs only (in debug builds: unless the counter overflows); C90 also
  shows what happens above (an overflow panic in
  a debug build; `unreachable!()` in a release build, so that C05 needs the limit).
* **`Result<Item, Error>`** is kept apart from panics: `P (Except Error Item)`.
* **Methods taking `self`/`&mut self`** return the new value.

### Not modelled

The `{:?}` text of tokens inside panic messages (the tokens are kept instead), `proc_macro2`'s lexer (`TokenStream::from_str`), compiler behaviour of macros, memory, and
performance other than the number of operations on token iterators and of tokens that these copy (C81).  `Debug` of strings and characters escapes backslashes, quotes, `\n`, `\r`, `\t` and `\0` only, not other characters that cannot be printed.
The doc-hidden marker `__no_split_for_impl__` is not modelled.  In `Edit.lean` names are arbitrary strings; `Names.lean` adds the panic of `Ident::new` for names that are no identifiers, with the Unicode tables as a parameter (C86).

## 2. Trusted base

1. Lean 4.33.0's kernel; axioms used by theorems are at most `propext`, `Classical.choice`, `Quot.sound`
   (checked for every declaration by `Verif/Audit.lean`, which also checks that the names in MANIFEST.json are theorems).  No own axioms, no `sorry`, no `native_decide`.
2. The faithfulness of the hand translation Rust → Lean (each definition cites its source lines), helped by
   `Verif/Conformance.lean`, which replays the inputs of the crate's test-suite and compares with the recorded snapshots (`#guard`, evaluated by Lean's
   interpreter: tests, not part of any proof).
3. The `proc_macro2`/`quote` assumptions: iteration order, `Peekable`, clone of an iterator is an
   independent copy (and, for C81, copies the tokens that are left), `Ident == str` compares the text including `r#`, `Group::new` + `set_span(s)` has
   `span() == s` and loses separate open/close spans, `Punct::new` has `call_site` span, appending to a
   `TokenStream` keeps every token except literals with a sign, which are split in two (`Verif/Stream.lean`, C79), `quote`'s `__span()` joins the first and last token spans and falls back to the first.

## 3. Properties and how they are proved

Five families of lemmas are proved for each parsing function and composed to the top:

* **Inversion** (`Keeps`, `Spec/Edits.lean`): if a function succeeds on `ts` leaving `rest`, then `ts = pre ++ rest` where `pre`
  differs from the printed node only by listed deviations, one for each place where venial drops or inserts a token.
* **Grammar** (`Spec/Grammar.lean`): a declarative grammar of all items, without reference to the parser; each parsing function
  is shown to read exactly its nonterminal (`Lemmas/Grammar*.lean`).
* **Re-parse**: a function run on `print node ++ rest` returns `node` and `rest`, when `node` is well-formed (`Spec/WellFormed.lean`) and `rest`
  does not continue it.
* **Shape**: every returned node is well-formed.
* **Goodness**: consumed tokens are a prefix, fuel never runs out, `unreachable!` never happens, and the result does not
  depend on tokens not reached.

| id | plan |
|---|---|
| C01 | inversion ⇒ without quirks `print item` and `ts` agree up to group open/close spans; negation witnesses for each quirk; `_partial` theorem names the quirks |
| C02 | re-parse, induction on the item (modules nest) |
| C03 | shape + re-parse; exception `static mut:` shown by witness |
| C04 | goodness: no `Panic.fuel`; also the fixed-point equation of the recursive knot |
| C05 | goodness: no `Panic.unreachable` |
| C06, C07 | goodness: proper suffix; stability under appended tokens |
| C08 | by unfolding plus C06 |
| C09, C10 | induction on the variant loop |
| C11, C12 | case analysis on the dispatcher with rollback lemmas |
| C13 | exact `iff` characterisation of `consume_stuff_until` with a declarative angle-depth specification |
| C14 | re-parse lemma for field lists |
| C15, C16, C17, C19, C20, C21, C22, C23, C28, C29, C30, C42, C43, C44, C45 | induction over lists / histories on the `Edit`, `Punctuated` and `Error` models |
| C18 | C02 + preservation of well-formedness by edits |
| C24, C25, C49 | invariants of every node of a parsed tree (`Spec/Nodes.lean`) |
| C26, C27 | inversion and re-parse for paths; counterexample for dropped commas |
| C31 – C39, C41, C47, C50 | the code does not satisfy the property: general theorem of failure and/or concrete witness, plus `_partial` theorem for the part that holds |
| C40, C48, C52 | fixed-point equation, inversion and induction over the attribute and member loops (`Spec/Body.lean`) |
| C46 | inversion / re-parse for macros |
| C53 | the grammar lemmas composed; recursion over modules by nesting depth in one direction, over the derivation in the other |
| C54 | both texts are read up to the end of the parameter list, after which the parser runs on the same input; case analysis on each kind of declaration |
| C55 | both lists are read whole, after which the parser runs on the same input |
| C56 | the parser reaches the where clause on the same input, and what it does after it commutes with replacing the clause |
| C57 | the tokens a derive macro would emit are put together from the modelled edition functions and shown to be a text of the grammar (C53) for exactly that impl; well-formedness of the parts comes from what the parser can return (C35); the converse, that nothing else is read back, comes from C62 |
| C58 | every parser that takes attributes and visibility only stores them: running it on any is running it on none and storing them afterwards; the exact conditions come from C62 (`Props/FrontExact.lean`) |
| C59 | the grammar (C53) is inverted at the last token of the text, whose contents are then exchanged |
| C60 | rewriting types keeps items well formed (`Lemmas/Rewrite.lean`), so C02 applies; three useful rewritings are shown to meet the conditions; the texts that can replace every type are characterised by trying them in one item for each kind of place (C62 for the converse) |
| C61 | types: an instance of C60; visibilities: the parsers do not look into groups without delimiters, so the group is met where a keyword or name is expected (Props/Fragments.lean for fields, variants, items in files, and the contents of attributes, whose path is then empty) |
| C62 | from the tokens' grammar (C53): the parts of a printed item are aligned with those of the text read, so the exceptions among parsed items (a static named `mut`, a macro named `pub`, ...) cannot have been read from their own tokens; converse is C02 |
| C51 | every parsing function commutes with a relabelling (`Spec/Relabel.lean`), by composition along the monad and the loops; likewise printing |
| C63 | from the tokens' grammar (C53), construct by construct: the outline of the text read is that of the tokens written; the span is a function of the outline |
| C64 | panics carry the tokens they quote; each parsing function is shown to panic only with a message that is true of the tokens left; induction on nesting for bodies |
| C65 | for each parsing function: if it panics, either it does so whatever follows, or there is a completion that succeeds before any follower in a given set; composed along bind, loops and the lookahead |
| C66 | an instance of C51 (all tokens moved to one place), and the model of {:?} and {:#?} commutes with it, node by node |
| C67 | a relation between items (old, new), defined part by part; the new item, with the commas that are not printed made the default ones, is well formed, so C02 applies |
| C68 | append lemmas for the list and sequence rules of the grammar (C53), put in place of the body by the lemmas of C59 and C55 |
| C69 | every grammar relation of C53 places its subtexts in the text: induction on ItemText with the exactness lemmas of Lemmas/Exact and the outline lemmas of C63 |
| C70 | the text is read back: an indented text determines the tree of lines it was made of (Lemmas/Tree), and each impl of Debug determines what is shown (Lemmas/Shown); that parsing keeps tokens without line breaks is naturality (C51) for the relabelling that removes line breaks |
| C71 | types and bounds of the grammar have paired angle brackets and none of the tokens that end a type (Lemmas/RustType, by induction over the derivation); so an item can be built for every derivation (Lemmas/RustPart, Lemmas/RustItem) that is one of the values venial can produce, with the same tokens; C01 says that such tokens are parsed |
| C72 | for each part of the grammar, a value is built that is well formed, has the tokens of the text but for separate places of delimiters and has the declared parts (Lemmas/Declared); by C02 quoting and parsing it gives it back, and by C51 the parts are not changed by the places (Lemmas/DeclaredFlat) |
| C73 | model: consume_path, consume_generic_args, parse_generic_arg; proof: construction of a well-formed path from its grammar and C27 for paths; for other types, induction over the segments of Rust paths and cases on the grammar of types |
| C74 | model: parse, quote, with_param, with_where_predicate, inline arguments, derive where clause; proof: the grammar does not depend on the separate places of delimiters (structural induction over the grammar), so the parts of the parsed declaration are in the grammar; the edited and derived ones are put together from them |
| C75 | Item' in Spec/RustRead.lean is the grammar of C71 with two smaller sets. declares shows by induction in both directions that it is the union of the texts of all well-formed declarations of C72; the rest follows from C72 and C74. |
| C76 | Spec/Built.lean defines okItem by recursion on items. Lemmas/Built.lean shows, kind by kind, that the quoted tokens are a text of the declaration (C72) with the item's parts exactly if the parts are ok, given that commas and semicolons are the right ones; Lemmas/BuiltShape.lean shows that they are, for ok items and for parsed ones. |
| C77 | Spec/Attributes.lean defines the change of attributes at every depth and collects them. Lemmas/Attributes.lean shows that well-formedness and okItem are kept, by induction on items; removing attributes exposes the next token to a tuple struct before it, so it is shown that no item starts with where, a semicolon or a brace. |
| C78 | Spec/Retype.lean defines the change and collects the types. Props/Retype.lean shows that okItem (C76) is kept, by induction on items, and that Rust types in places where a brace ends them are Rust types, by induction on the grammar. |
| C79 | Stream.lean models the splitting of literals (part of proc_macro2, described in the trusted base). Props/Stream.lean: parsed items by induction on Edits (C01); the if-and-only-if by counting the characters of literals, which splitting reduces and parsing and quoting never increases. |
| C80 | Spec/Runs.lean defines mapRuns (the rewritten item), RunChange (the four conditions) and replaceAll (token by token); Lemmas/Runs.lean shows that well-formedness is kept, so C02 applies; Lemmas/Replace.lean shows by induction over the run that replacing tokens keeps it closed, with any number of open angle brackets. |
| C81 | Count.lean repeats the parser in a monad that counts iterator operations and copied tokens; Lemmas/Count.lean shows that forgetting the counts gives the parser. Lemmas/Cost.lean has a rule for each statement, in terms of what is left to spend: taking a token of size s pays for A s operations; loops pay with the token that each round takes. Lemmas/Costs.lean, CostTypes.lean, CostItems.lean and CostRec.lean apply them to each function, and to the recursion by induction on its fuel. quadratic_reached is by induction on the number of functions. |
| C82 | C29 gives the tokens; they are those of well-formed macros (C02, C40), joined with C68. |
| C83 | Split the quoted text of a declaration at the place of its generic parameters and of its where clause; quoting a list after push and insert; induction over the calls. |
| C84 | C51 with a change of spacing: the parser commutes with making all spacing alone; two streams that become equal are those that differ in spacing only. |
| C85 | Each deviation of C01 is looked at; the theorems of C83 say where the calls put tokens, and the commas left out at the end of parsed lists are plain, which the calls maintain. |
| C86 | Unfold the constructors; C85 for the rest. |
| C87 | The documented function is written down as it stands; composition of C09, C63, C71, C75 and C82, with the fact that rebuilding groups does not change the span of an item. |
| C88 | Spec/RustFull.lean has the grammar with switches. Without switches it is the grammar of C71 (rust_iff, equality of the sets rule by rule); items with visible implementations and enums with long values are shown to be in the grammar of C53, by induction on the derivation; one derivation for each construct. |
| C89 | Place/Slot: a path through nested modules in the text and in the list of items. Induction over the path, with the exact characterisation of what is read (C53) and of bodies (C59). |
| C90 | Machine.lean writes the parser in a monad with the state of a Peekable, the build as a parameter, and none for a run that does not end. Lemmas/Machine.lean has a refinement relation between its programs and those of the model, with a rule for each statement; a loop is refined because its rounds take tokens, the counter because it is at most the number of `<` in the stream. MachineFns, MachineRec and MachinePath apply it to each function, to the recursion by induction on the number of tokens. That every run ends, also where the counter wraps around, is a second pass over the functions (MachineEnds): none gains tokens and each round of a loop takes some. In debug builds the relation allows a run that ends in an overflow instead, and then needs no bound. The overflow is by induction on the number of brackets. |
| C91 | recN, by which the recursion is tied, is read as a limit on nested calls. Lemmas/Calls.lean relates each function under the limit to the one without it, together with a weight of its result; by induction on the limit. |
| C92 | Induction over the deviations of C01 with counting. |
| C93 | model: consume_path, consume_generic_args, parse_generic_arg; proof: inversion and re-parse of argument lists with an optional extra comma; induction on the length of the input for the panics; a scan that counts angle brackets for the extra commas |
| C94 | model: parse_item; proof: from the grammar of C53 by cases on its rules; a small table (Spec/Ends.lean) gives the last token for each kind of item |
| C95 | model: parse_item; proof: the grammar (Spec/DeriveInput.lean over Spec/RustFull.lean) without the six constructs is that of C71, so that parse_item accepts; that the kind is that of the keyword follows from C11 |
| C96 | model: parse_item; proof: without the constructs of its list the grammar of a kind (Spec/KindInput.lean over Spec/RustFull.lean) is that of C71, for type aliases by the lemmas on runs of tokens; the kind follows from the prefixes and the token after them (C12); for each construct an item is derived in the grammar and evaluated |
| C97 | model: parse_item, parse_impl_body; proof: the text of a member (C53) and the text of an item are compared case by case; where the block is read and where the item, by the kind that its front fixes (C12); the text after the inner attributes is determined, so that the block around it can be exchanged (C59) |
| C98 | model: parse_item; proof: by induction on the parameters; each is one that the model's grammar knows, or its first step panics, or it is cut at an arrow (induction on the grammar of types); in the last case the `>` of the list is left over, but what follows the parameters of a declaration that is read closes no more angle brackets than it opens |
| C99 | model: parse_item; proof: from the grammar of the items that are read (C53): each part of a declaration that may have angle brackets is level, by induction on lists of parameters and predicates |
| C100 | model: parse_item; proof: by induction on the grammar of the items that are read (C53), part by part |
| C101 | model: parse_item, consume_item; proof: from the grammar of the items that are read and what may follow them (C53), the first token of an item (C94), and induction on the number of pieces |
| C102 | model: parse_item, quoting, Punctuated::insert; proof: from the characterisation of the items that are read back (C62), part by part |
| C103 | model: parse_item, quoting, Punctuated::push; proof: what push does to the printed commas, and the characterisation of the items that are read back (C62) |
| C104 | model: parse_item, quoting; proof: from the characterisation of the items that are read back (C62), member by member |
| C105 | model: parse_item, quoting; proof: from the characterisation of the items that are read back (C62), part by part |

All of them can be expressed in the model; none is marked not applicable.
