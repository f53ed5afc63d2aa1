import Verif.Parse
import Verif.Edit
import Verif.Debug
import Verif.Spec.Tok

/-!
# Conformance tests

The model, run on the inputs of `/repo/src/tests.rs`, compared with the outputs of the program that are recorded in `/repo/src/snapshots`.  These are
tests of the model, not proofs: they are evaluated by `#guard`.

Generated by `tools/mkconformance.py`.
-/

namespace Venial.Conformance
open Venial Tok

/-- `parse_item(..).unwrap()` -/
def item (ts : List TT) : Option Item :=
  match parse_item ts with
  | .ok (.ok i) => some i
  | _ => none

/-- `parse_item(..)` -/
def result (ts : List TT) : Option (Except Error Item) :=
  match parse_item ts with
  | .ok x => some x
  | .error _ => none

/-- `parse_declaration_checked`, `/repo/src/tests.rs:19-26`: the item must print as the same text. -/
def checked (ts : List TT) : Option Item :=
  (item ts).bind fun i => if TT.displayL i.toTokens = TT.displayL ts then some i else none

/-- `parse_struct_declaration`, `/repo/src/tests.rs:961-966` -/
def struct (ts : List TT) : Option Struct := (item ts).bind fun i => i.as_struct

/-- `parse_generic_args_checked`, `/repo/src/tests.rs:28-41` -/
def args (ts : List TT) : Option GenericArgList :=
  match consume_generic_args ts with
  | .ok (some a, _) => if TT.displayL a.toTokens = TT.displayL ts then some a else none
  | _ => none

/-- `WhereClausePredicate::parse` -/
def predicate (ts : List TT) : Option WhereClausePredicate :=
  match WhereClausePredicate.parse ts with
  | .ok p => some p
  | .error _ => none

/-- `TypeExpr::as_path` -/
def path (t : TypeExpr) : Option Path :=
  match t.as_path with
  | .ok p => p
  | .error _ => none

/-- `TypeExpr::as_path` returns `None` -/
def isNotPath (t : Option TypeExpr) : Bool :=
  match t with
  | some t => (match t.as_path with | .ok none => true | _ => false)
  | none => false

/-- `as_inline_args().to_owned_args()` -/
def owned (p : GenericParamList) : Option GenericArgList := p.to_owned_args

/-- `assert_debug_snapshot!` -/
def shows {α : Type} (debug : α → Doc) (x : Option α) (expected : String) : Bool :=
  match x with
  | some x => (debug x).pretty == expected && !(debug x).panics
  | none => false

/-- `assert_quote_snapshot!` -/
def prints (x : Option Struct) (expected : String) : Bool :=
  match x with
  | some x => TT.displayL x.toTokens == expected
  | none => false

/-- `#[should_panic]` -/
def panics (ts : List TT) : Bool :=
  match parse_item ts with
  | .ok _ => false
  | .error _ => true

/-! `parse_unit_struct` -/
#guard shows Item.debug (checked [w "struct", w "Hello", pu ';']) "Struct(
    Struct {
        attributes: [],
        vis_marker: None,
        tk_struct: Ident(
            struct,
        ),
        name: Ident(
            Hello,
        ),
        generic_params: None,
        where_clause: None,
        fields: Unit,
        tk_semicolon: Some(
            Punct {
                char: ';',
                spacing: Alone,
            },
        ),
    },
)"

/-! `parse_tuple_struct` -/
#guard shows Item.debug (checked [w "struct", w "Hello", parens [w "A", pu ',', w "B"], pu ';']) "Struct(
    Struct {
        attributes: [],
        vis_marker: None,
        tk_struct: Ident(
            struct,
        ),
        name: Ident(
            Hello,
        ),
        generic_params: None,
        where_clause: None,
        fields: Tuple(
            [
                TupleField {
                    attributes: [],
                    vis_marker: None,
                    ty: [
                        A,
                    ],
                },
                TupleField {
                    attributes: [],
                    vis_marker: None,
                    ty: [
                        B,
                    ],
                },
            ],
        ),
        tk_semicolon: Some(
            Punct {
                char: ';',
                spacing: Alone,
            },
        ),
    },
)"

/-! `parse_normal_struct` -/
#guard shows Item.debug (checked [w "struct", w "Hello", braces [w "a", pu ':', w "A", pu ',', w "b", pu ':', w "B", pu ',']]) "Struct(
    Struct {
        attributes: [],
        vis_marker: None,
        tk_struct: Ident(
            struct,
        ),
        name: Ident(
            Hello,
        ),
        generic_params: None,
        where_clause: None,
        fields: Named(
            [
                NamedField {
                    attributes: [],
                    vis_marker: None,
                    name: Ident(
                        a,
                    ),
                    tk_colon: Punct {
                        char: ':',
                        spacing: Alone,
                    },
                    ty: [
                        A,
                    ],
                },
                NamedField {
                    attributes: [],
                    vis_marker: None,
                    name: Ident(
                        b,
                    ),
                    tk_colon: Punct {
                        char: ':',
                        spacing: Alone,
                    },
                    ty: [
                        B,
                    ],
                },
            ],
        ),
        tk_semicolon: None,
    },
)"

/-! `parse_enum` -/
#guard shows Item.debug (checked [w "enum", w "Hello", braces [w "A", pu ',', w "B", parens [w "Foo", pu ',', w "Bar"], pu ',', w "C", braces [w "foo", pu ':', w "Foo", pu ',', w "bar", pu ':', w "Bar"], pu ',']]) "Enum(
    Enum {
        attributes: [],
        vis_marker: None,
        tk_enum: Ident(
            enum,
        ),
        name: Ident(
            Hello,
        ),
        generic_params: None,
        where_clauses: None,
        variants: [
            EnumVariant {
                attributes: [],
                vis_marker: None,
                name: Ident(
                    A,
                ),
                fields: Unit,
                value: None,
            },
            EnumVariant {
                attributes: [],
                vis_marker: None,
                name: Ident(
                    B,
                ),
                fields: Tuple(
                    [
                        TupleField {
                            attributes: [],
                            vis_marker: None,
                            ty: [
                                Foo,
                            ],
                        },
                        TupleField {
                            attributes: [],
                            vis_marker: None,
                            ty: [
                                Bar,
                            ],
                        },
                    ],
                ),
                value: None,
            },
            EnumVariant {
                attributes: [],
                vis_marker: None,
                name: Ident(
                    C,
                ),
                fields: Named(
                    [
                        NamedField {
                            attributes: [],
                            vis_marker: None,
                            name: Ident(
                                foo,
                            ),
                            tk_colon: Punct {
                                char: ':',
                                spacing: Alone,
                            },
                            ty: [
                                Foo,
                            ],
                        },
                        NamedField {
                            attributes: [],
                            vis_marker: None,
                            name: Ident(
                                bar,
                            ),
                            tk_colon: Punct {
                                char: ':',
                                spacing: Alone,
                            },
                            ty: [
                                Bar,
                            ],
                        },
                    ],
                ),
                value: None,
            },
        ],
    },
)"

/-! `parse_union` -/
#guard shows Item.debug (checked [w "union", w "Hello", braces [w "a", pu ':', w "A", pu ',', w "b", pu ':', w "B", pu ',']]) "Union(
    Union {
        attributes: [],
        vis_marker: None,
        tk_union: Ident(
            union,
        ),
        name: Ident(
            Hello,
        ),
        generic_params: None,
        where_clauses: None,
        fields: [
            NamedField {
                attributes: [],
                vis_marker: None,
                name: Ident(
                    a,
                ),
                tk_colon: Punct {
                    char: ':',
                    spacing: Alone,
                },
                ty: [
                    A,
                ],
            },
            NamedField {
                attributes: [],
                vis_marker: None,
                name: Ident(
                    b,
                ),
                tk_colon: Punct {
                    char: ':',
                    spacing: Alone,
                },
                ty: [
                    B,
                ],
            },
        ],
    },
)"

/-! `parse_empty_tuple` -/
#guard shows Item.debug (checked [w "struct", w "Hello", parens [], pu ';']) "Struct(
    Struct {
        attributes: [],
        vis_marker: None,
        tk_struct: Ident(
            struct,
        ),
        name: Ident(
            Hello,
        ),
        generic_params: None,
        where_clause: None,
        fields: Tuple(
            [],
        ),
        tk_semicolon: Some(
            Punct {
                char: ';',
                spacing: Alone,
            },
        ),
    },
)"

/-! `parse_empty_struct` -/
#guard shows Item.debug (checked [w "struct", w "Hello", braces []]) "Struct(
    Struct {
        attributes: [],
        vis_marker: None,
        tk_struct: Ident(
            struct,
        ),
        name: Ident(
            Hello,
        ),
        generic_params: None,
        where_clause: None,
        fields: Named(
            [],
        ),
        tk_semicolon: None,
    },
)"

/-! `parse_empty_enum` -/
#guard shows Item.debug (checked [w "enum", w "Hello", braces []]) "Enum(
    Enum {
        attributes: [],
        vis_marker: None,
        tk_enum: Ident(
            enum,
        ),
        name: Ident(
            Hello,
        ),
        generic_params: None,
        where_clauses: None,
        variants: [],
    },
)"

/-! `reject_trailing_tokens` -/
#guard panics [w "struct", w "Good", braces [], w "trailing", w "junk"]

/-! `parse_unit_struct_vis` -/
#guard shows Item.debug (checked [w "pub", w "struct", w "Hello", pu ';']) "Struct(
    Struct {
        attributes: [],
        vis_marker: Some(
            pub,
        ),
        tk_struct: Ident(
            struct,
        ),
        name: Ident(
            Hello,
        ),
        generic_params: None,
        where_clause: None,
        fields: Unit,
        tk_semicolon: Some(
            Punct {
                char: ';',
                spacing: Alone,
            },
        ),
    },
)"
#guard shows Item.debug (checked [w "pub", parens [w "crate"], w "struct", w "Hello", pu ';']) "Struct(
    Struct {
        attributes: [],
        vis_marker: Some(
            pub(
                crate,
            ),
        ),
        tk_struct: Ident(
            struct,
        ),
        name: Ident(
            Hello,
        ),
        generic_params: None,
        where_clause: None,
        fields: Unit,
        tk_semicolon: Some(
            Punct {
                char: ';',
                spacing: Alone,
            },
        ),
    },
)"
#guard shows Item.debug (checked [w "crate", w "struct", w "Hello", pu ';']) "Struct(
    Struct {
        attributes: [],
        vis_marker: Some(
            crate,
        ),
        tk_struct: Ident(
            struct,
        ),
        name: Ident(
            Hello,
        ),
        generic_params: None,
        where_clause: None,
        fields: Unit,
        tk_semicolon: Some(
            Punct {
                char: ';',
                spacing: Alone,
            },
        ),
    },
)"

/-! `parse_tuple_struct_vis` -/
#guard shows Item.debug (checked [w "pub", w "struct", w "Hello", parens [w "A", pu ',', w "B"], pu ';']) "Struct(
    Struct {
        attributes: [],
        vis_marker: Some(
            pub,
        ),
        tk_struct: Ident(
            struct,
        ),
        name: Ident(
            Hello,
        ),
        generic_params: None,
        where_clause: None,
        fields: Tuple(
            [
                TupleField {
                    attributes: [],
                    vis_marker: None,
                    ty: [
                        A,
                    ],
                },
                TupleField {
                    attributes: [],
                    vis_marker: None,
                    ty: [
                        B,
                    ],
                },
            ],
        ),
        tk_semicolon: Some(
            Punct {
                char: ';',
                spacing: Alone,
            },
        ),
    },
)"
#guard shows Item.debug (checked [w "pub", parens [w "crate"], w "struct", w "Hello", parens [w "A", pu ',', w "B"], pu ';']) "Struct(
    Struct {
        attributes: [],
        vis_marker: Some(
            pub(
                crate,
            ),
        ),
        tk_struct: Ident(
            struct,
        ),
        name: Ident(
            Hello,
        ),
        generic_params: None,
        where_clause: None,
        fields: Tuple(
            [
                TupleField {
                    attributes: [],
                    vis_marker: None,
                    ty: [
                        A,
                    ],
                },
                TupleField {
                    attributes: [],
                    vis_marker: None,
                    ty: [
                        B,
                    ],
                },
            ],
        ),
        tk_semicolon: Some(
            Punct {
                char: ';',
                spacing: Alone,
            },
        ),
    },
)"
#guard shows Item.debug (checked [w "crate", w "struct", w "Hello", parens [w "A", pu ',', w "B"], pu ';']) "Struct(
    Struct {
        attributes: [],
        vis_marker: Some(
            crate,
        ),
        tk_struct: Ident(
            struct,
        ),
        name: Ident(
            Hello,
        ),
        generic_params: None,
        where_clause: None,
        fields: Tuple(
            [
                TupleField {
                    attributes: [],
                    vis_marker: None,
                    ty: [
                        A,
                    ],
                },
                TupleField {
                    attributes: [],
                    vis_marker: None,
                    ty: [
                        B,
                    ],
                },
            ],
        ),
        tk_semicolon: Some(
            Punct {
                char: ';',
                spacing: Alone,
            },
        ),
    },
)"

/-! `parse_normal_struct_vis` -/
#guard shows Item.debug (checked [w "pub", w "struct", w "Hello", braces [w "a", pu ':', w "A", pu ',', w "b", pu ':', w "B", pu ',']]) "Struct(
    Struct {
        attributes: [],
        vis_marker: Some(
            pub,
        ),
        tk_struct: Ident(
            struct,
        ),
        name: Ident(
            Hello,
        ),
        generic_params: None,
        where_clause: None,
        fields: Named(
            [
                NamedField {
                    attributes: [],
                    vis_marker: None,
                    name: Ident(
                        a,
                    ),
                    tk_colon: Punct {
                        char: ':',
                        spacing: Alone,
                    },
                    ty: [
                        A,
                    ],
                },
                NamedField {
                    attributes: [],
                    vis_marker: None,
                    name: Ident(
                        b,
                    ),
                    tk_colon: Punct {
                        char: ':',
                        spacing: Alone,
                    },
                    ty: [
                        B,
                    ],
                },
            ],
        ),
        tk_semicolon: None,
    },
)"
#guard shows Item.debug (checked [w "pub", parens [w "crate"], w "struct", w "Hello", braces [w "a", pu ':', w "A", pu ',', w "b", pu ':', w "B", pu ',']]) "Struct(
    Struct {
        attributes: [],
        vis_marker: Some(
            pub(
                crate,
            ),
        ),
        tk_struct: Ident(
            struct,
        ),
        name: Ident(
            Hello,
        ),
        generic_params: None,
        where_clause: None,
        fields: Named(
            [
                NamedField {
                    attributes: [],
                    vis_marker: None,
                    name: Ident(
                        a,
                    ),
                    tk_colon: Punct {
                        char: ':',
                        spacing: Alone,
                    },
                    ty: [
                        A,
                    ],
                },
                NamedField {
                    attributes: [],
                    vis_marker: None,
                    name: Ident(
                        b,
                    ),
                    tk_colon: Punct {
                        char: ':',
                        spacing: Alone,
                    },
                    ty: [
                        B,
                    ],
                },
            ],
        ),
        tk_semicolon: None,
    },
)"
#guard shows Item.debug (checked [w "crate", w "struct", w "Hello", braces [w "a", pu ':', w "A", pu ',', w "b", pu ':', w "B", pu ',']]) "Struct(
    Struct {
        attributes: [],
        vis_marker: Some(
            crate,
        ),
        tk_struct: Ident(
            struct,
        ),
        name: Ident(
            Hello,
        ),
        generic_params: None,
        where_clause: None,
        fields: Named(
            [
                NamedField {
                    attributes: [],
                    vis_marker: None,
                    name: Ident(
                        a,
                    ),
                    tk_colon: Punct {
                        char: ':',
                        spacing: Alone,
                    },
                    ty: [
                        A,
                    ],
                },
                NamedField {
                    attributes: [],
                    vis_marker: None,
                    name: Ident(
                        b,
                    ),
                    tk_colon: Punct {
                        char: ':',
                        spacing: Alone,
                    },
                    ty: [
                        B,
                    ],
                },
            ],
        ),
        tk_semicolon: None,
    },
)"

/-! `parse_enum_vis` -/
#guard shows Item.debug (checked [w "pub", w "enum", w "Hello", braces [w "A", pu ',', w "B", parens [w "Foo", pu ',', w "Bar"], pu ',', w "C", braces [w "foo", pu ':', w "Foo", pu ',', w "bar", pu ':', w "Bar"], pu ',']]) "Enum(
    Enum {
        attributes: [],
        vis_marker: Some(
            pub,
        ),
        tk_enum: Ident(
            enum,
        ),
        name: Ident(
            Hello,
        ),
        generic_params: None,
        where_clauses: None,
        variants: [
            EnumVariant {
                attributes: [],
                vis_marker: None,
                name: Ident(
                    A,
                ),
                fields: Unit,
                value: None,
            },
            EnumVariant {
                attributes: [],
                vis_marker: None,
                name: Ident(
                    B,
                ),
                fields: Tuple(
                    [
                        TupleField {
                            attributes: [],
                            vis_marker: None,
                            ty: [
                                Foo,
                            ],
                        },
                        TupleField {
                            attributes: [],
                            vis_marker: None,
                            ty: [
                                Bar,
                            ],
                        },
                    ],
                ),
                value: None,
            },
            EnumVariant {
                attributes: [],
                vis_marker: None,
                name: Ident(
                    C,
                ),
                fields: Named(
                    [
                        NamedField {
                            attributes: [],
                            vis_marker: None,
                            name: Ident(
                                foo,
                            ),
                            tk_colon: Punct {
                                char: ':',
                                spacing: Alone,
                            },
                            ty: [
                                Foo,
                            ],
                        },
                        NamedField {
                            attributes: [],
                            vis_marker: None,
                            name: Ident(
                                bar,
                            ),
                            tk_colon: Punct {
                                char: ':',
                                spacing: Alone,
                            },
                            ty: [
                                Bar,
                            ],
                        },
                    ],
                ),
                value: None,
            },
        ],
    },
)"
#guard shows Item.debug (checked [w "pub", parens [w "crate"], w "enum", w "Hello", braces [w "A", pu ',', w "B", parens [w "Foo", pu ',', w "Bar"], pu ',', w "C", braces [w "foo", pu ':', w "Foo", pu ',', w "bar", pu ':', w "Bar"], pu ',']]) "Enum(
    Enum {
        attributes: [],
        vis_marker: Some(
            pub(
                crate,
            ),
        ),
        tk_enum: Ident(
            enum,
        ),
        name: Ident(
            Hello,
        ),
        generic_params: None,
        where_clauses: None,
        variants: [
            EnumVariant {
                attributes: [],
                vis_marker: None,
                name: Ident(
                    A,
                ),
                fields: Unit,
                value: None,
            },
            EnumVariant {
                attributes: [],
                vis_marker: None,
                name: Ident(
                    B,
                ),
                fields: Tuple(
                    [
                        TupleField {
                            attributes: [],
                            vis_marker: None,
                            ty: [
                                Foo,
                            ],
                        },
                        TupleField {
                            attributes: [],
                            vis_marker: None,
                            ty: [
                                Bar,
                            ],
                        },
                    ],
                ),
                value: None,
            },
            EnumVariant {
                attributes: [],
                vis_marker: None,
                name: Ident(
                    C,
                ),
                fields: Named(
                    [
                        NamedField {
                            attributes: [],
                            vis_marker: None,
                            name: Ident(
                                foo,
                            ),
                            tk_colon: Punct {
                                char: ':',
                                spacing: Alone,
                            },
                            ty: [
                                Foo,
                            ],
                        },
                        NamedField {
                            attributes: [],
                            vis_marker: None,
                            name: Ident(
                                bar,
                            ),
                            tk_colon: Punct {
                                char: ':',
                                spacing: Alone,
                            },
                            ty: [
                                Bar,
                            ],
                        },
                    ],
                ),
                value: None,
            },
        ],
    },
)"
#guard shows Item.debug (checked [w "crate", w "enum", w "Hello", braces [w "A", pu ',', w "B", parens [w "Foo", pu ',', w "Bar"], pu ',', w "C", braces [w "foo", pu ':', w "Foo", pu ',', w "bar", pu ':', w "Bar"], pu ',']]) "Enum(
    Enum {
        attributes: [],
        vis_marker: Some(
            crate,
        ),
        tk_enum: Ident(
            enum,
        ),
        name: Ident(
            Hello,
        ),
        generic_params: None,
        where_clauses: None,
        variants: [
            EnumVariant {
                attributes: [],
                vis_marker: None,
                name: Ident(
                    A,
                ),
                fields: Unit,
                value: None,
            },
            EnumVariant {
                attributes: [],
                vis_marker: None,
                name: Ident(
                    B,
                ),
                fields: Tuple(
                    [
                        TupleField {
                            attributes: [],
                            vis_marker: None,
                            ty: [
                                Foo,
                            ],
                        },
                        TupleField {
                            attributes: [],
                            vis_marker: None,
                            ty: [
                                Bar,
                            ],
                        },
                    ],
                ),
                value: None,
            },
            EnumVariant {
                attributes: [],
                vis_marker: None,
                name: Ident(
                    C,
                ),
                fields: Named(
                    [
                        NamedField {
                            attributes: [],
                            vis_marker: None,
                            name: Ident(
                                foo,
                            ),
                            tk_colon: Punct {
                                char: ':',
                                spacing: Alone,
                            },
                            ty: [
                                Foo,
                            ],
                        },
                        NamedField {
                            attributes: [],
                            vis_marker: None,
                            name: Ident(
                                bar,
                            ),
                            tk_colon: Punct {
                                char: ':',
                                spacing: Alone,
                            },
                            ty: [
                                Bar,
                            ],
                        },
                    ],
                ),
                value: None,
            },
        ],
    },
)"

/-! `parse_struct_fields_vis` -/
#guard shows Item.debug (checked [w "pub", w "struct", w "Hello", braces [w "pub", w "a", pu ':', w "A", pu ',', w "pub", parens [w "super"], w "b", pu ':', w "B", pu ',', w "crate", w "c", pu ':', w "C", pu ',', w "d", pu ':', w "D", pu ',']]) "Struct(
    Struct {
        attributes: [],
        vis_marker: Some(
            pub,
        ),
        tk_struct: Ident(
            struct,
        ),
        name: Ident(
            Hello,
        ),
        generic_params: None,
        where_clause: None,
        fields: Named(
            [
                NamedField {
                    attributes: [],
                    vis_marker: Some(
                        pub,
                    ),
                    name: Ident(
                        a,
                    ),
                    tk_colon: Punct {
                        char: ':',
                        spacing: Alone,
                    },
                    ty: [
                        A,
                    ],
                },
                NamedField {
                    attributes: [],
                    vis_marker: Some(
                        pub(
                            super,
                        ),
                    ),
                    name: Ident(
                        b,
                    ),
                    tk_colon: Punct {
                        char: ':',
                        spacing: Alone,
                    },
                    ty: [
                        B,
                    ],
                },
                NamedField {
                    attributes: [],
                    vis_marker: Some(
                        crate,
                    ),
                    name: Ident(
                        c,
                    ),
                    tk_colon: Punct {
                        char: ':',
                        spacing: Alone,
                    },
                    ty: [
                        C,
                    ],
                },
                NamedField {
                    attributes: [],
                    vis_marker: None,
                    name: Ident(
                        d,
                    ),
                    tk_colon: Punct {
                        char: ':',
                        spacing: Alone,
                    },
                    ty: [
                        D,
                    ],
                },
            ],
        ),
        tk_semicolon: None,
    },
)"

/-! `parse_tuple_fields_vis` -/
#guard shows Item.debug (checked [w "pub", w "struct", w "Hello", parens [w "pub", w "A", pu ',', w "pub", parens [w "super"], w "B", pu ',', w "crate", w "C", pu ',', w "D"], pu ';']) "Struct(
    Struct {
        attributes: [],
        vis_marker: Some(
            pub,
        ),
        tk_struct: Ident(
            struct,
        ),
        name: Ident(
            Hello,
        ),
        generic_params: None,
        where_clause: None,
        fields: Tuple(
            [
                TupleField {
                    attributes: [],
                    vis_marker: Some(
                        pub,
                    ),
                    ty: [
                        A,
                    ],
                },
                TupleField {
                    attributes: [],
                    vis_marker: Some(
                        pub(
                            super,
                        ),
                    ),
                    ty: [
                        B,
                    ],
                },
                TupleField {
                    attributes: [],
                    vis_marker: Some(
                        crate,
                    ),
                    ty: [
                        C,
                    ],
                },
                TupleField {
                    attributes: [],
                    vis_marker: None,
                    ty: [
                        D,
                    ],
                },
            ],
        ),
        tk_semicolon: Some(
            Punct {
                char: ';',
                spacing: Alone,
            },
        ),
    },
)"

/-! `parse_unit_struct_attributes` -/
#guard shows Item.debug (checked [pu '#', brackets [w "hello"], w "pub", w "struct", w "Hello", pu ';']) "Struct(
    Struct {
        attributes: [
            Attribute {
                tk_hash: Punct {
                    char: '#',
                    spacing: Alone,
                },
                tk_brackets: [],
                path: [
                    hello,
                ],
                value: Empty,
            },
        ],
        vis_marker: Some(
            pub,
        ),
        tk_struct: Ident(
            struct,
        ),
        name: Ident(
            Hello,
        ),
        generic_params: None,
        where_clause: None,
        fields: Unit,
        tk_semicolon: Some(
            Punct {
                char: ';',
                spacing: Alone,
            },
        ),
    },
)"

/-! `parse_tuple_struct_attributes` -/
#guard shows Item.debug (checked [pu '#', brackets [w "hello"], w "pub", w "struct", w "Hello", parens [w "A", pu ',', w "B"], pu ';']) "Struct(
    Struct {
        attributes: [
            Attribute {
                tk_hash: Punct {
                    char: '#',
                    spacing: Alone,
                },
                tk_brackets: [],
                path: [
                    hello,
                ],
                value: Empty,
            },
        ],
        vis_marker: Some(
            pub,
        ),
        tk_struct: Ident(
            struct,
        ),
        name: Ident(
            Hello,
        ),
        generic_params: None,
        where_clause: None,
        fields: Tuple(
            [
                TupleField {
                    attributes: [],
                    vis_marker: None,
                    ty: [
                        A,
                    ],
                },
                TupleField {
                    attributes: [],
                    vis_marker: None,
                    ty: [
                        B,
                    ],
                },
            ],
        ),
        tk_semicolon: Some(
            Punct {
                char: ';',
                spacing: Alone,
            },
        ),
    },
)"

/-! `parse_normal_struct_attributes` -/
#guard shows Item.debug (checked [pu '#', brackets [w "hello"], w "pub", w "struct", w "Hello", braces [w "a", pu ':', w "A", pu ',', w "b", pu ':', w "B", pu ',']]) "Struct(
    Struct {
        attributes: [
            Attribute {
                tk_hash: Punct {
                    char: '#',
                    spacing: Alone,
                },
                tk_brackets: [],
                path: [
                    hello,
                ],
                value: Empty,
            },
        ],
        vis_marker: Some(
            pub,
        ),
        tk_struct: Ident(
            struct,
        ),
        name: Ident(
            Hello,
        ),
        generic_params: None,
        where_clause: None,
        fields: Named(
            [
                NamedField {
                    attributes: [],
                    vis_marker: None,
                    name: Ident(
                        a,
                    ),
                    tk_colon: Punct {
                        char: ':',
                        spacing: Alone,
                    },
                    ty: [
                        A,
                    ],
                },
                NamedField {
                    attributes: [],
                    vis_marker: None,
                    name: Ident(
                        b,
                    ),
                    tk_colon: Punct {
                        char: ':',
                        spacing: Alone,
                    },
                    ty: [
                        B,
                    ],
                },
            ],
        ),
        tk_semicolon: None,
    },
)"

/-! `parse_enum_attributes` -/
#guard shows Item.debug (checked [pu '#', brackets [w "hello"], w "pub", w "enum", w "Hello", braces [w "A", pu ',', w "B", parens [w "Foo", pu ',', w "Bar"], pu ',', w "C", braces [w "foo", pu ':', w "Foo", pu ',', w "bar", pu ':', w "Bar"], pu ',']]) "Enum(
    Enum {
        attributes: [
            Attribute {
                tk_hash: Punct {
                    char: '#',
                    spacing: Alone,
                },
                tk_brackets: [],
                path: [
                    hello,
                ],
                value: Empty,
            },
        ],
        vis_marker: Some(
            pub,
        ),
        tk_enum: Ident(
            enum,
        ),
        name: Ident(
            Hello,
        ),
        generic_params: None,
        where_clauses: None,
        variants: [
            EnumVariant {
                attributes: [],
                vis_marker: None,
                name: Ident(
                    A,
                ),
                fields: Unit,
                value: None,
            },
            EnumVariant {
                attributes: [],
                vis_marker: None,
                name: Ident(
                    B,
                ),
                fields: Tuple(
                    [
                        TupleField {
                            attributes: [],
                            vis_marker: None,
                            ty: [
                                Foo,
                            ],
                        },
                        TupleField {
                            attributes: [],
                            vis_marker: None,
                            ty: [
                                Bar,
                            ],
                        },
                    ],
                ),
                value: None,
            },
            EnumVariant {
                attributes: [],
                vis_marker: None,
                name: Ident(
                    C,
                ),
                fields: Named(
                    [
                        NamedField {
                            attributes: [],
                            vis_marker: None,
                            name: Ident(
                                foo,
                            ),
                            tk_colon: Punct {
                                char: ':',
                                spacing: Alone,
                            },
                            ty: [
                                Foo,
                            ],
                        },
                        NamedField {
                            attributes: [],
                            vis_marker: None,
                            name: Ident(
                                bar,
                            ),
                            tk_colon: Punct {
                                char: ':',
                                spacing: Alone,
                            },
                            ty: [
                                Bar,
                            ],
                        },
                    ],
                ),
                value: None,
            },
        ],
    },
)"

/-! `parse_struct_fields_attributes` -/
#guard shows Item.debug (checked [w "pub", w "struct", w "Hello", braces [pu '#', brackets [w "hello"], w "a", pu ':', w "A", pu ',', w "b", pu ':', w "B", pu ',', pu '#', brackets [w "hello"], pu '#', brackets [w "hello"], pu '#', brackets [w "hello"], w "c", pu ':', w "C", pu ',', w "d", pu ':', w "D", pu ',']]) "Struct(
    Struct {
        attributes: [],
        vis_marker: Some(
            pub,
        ),
        tk_struct: Ident(
            struct,
        ),
        name: Ident(
            Hello,
        ),
        generic_params: None,
        where_clause: None,
        fields: Named(
            [
                NamedField {
                    attributes: [
                        Attribute {
                            tk_hash: Punct {
                                char: '#',
                                spacing: Alone,
                            },
                            tk_brackets: [],
                            path: [
                                hello,
                            ],
                            value: Empty,
                        },
                    ],
                    vis_marker: None,
                    name: Ident(
                        a,
                    ),
                    tk_colon: Punct {
                        char: ':',
                        spacing: Alone,
                    },
                    ty: [
                        A,
                    ],
                },
                NamedField {
                    attributes: [],
                    vis_marker: None,
                    name: Ident(
                        b,
                    ),
                    tk_colon: Punct {
                        char: ':',
                        spacing: Alone,
                    },
                    ty: [
                        B,
                    ],
                },
                NamedField {
                    attributes: [
                        Attribute {
                            tk_hash: Punct {
                                char: '#',
                                spacing: Alone,
                            },
                            tk_brackets: [],
                            path: [
                                hello,
                            ],
                            value: Empty,
                        },
                        Attribute {
                            tk_hash: Punct {
                                char: '#',
                                spacing: Alone,
                            },
                            tk_brackets: [],
                            path: [
                                hello,
                            ],
                            value: Empty,
                        },
                        Attribute {
                            tk_hash: Punct {
                                char: '#',
                                spacing: Alone,
                            },
                            tk_brackets: [],
                            path: [
                                hello,
                            ],
                            value: Empty,
                        },
                    ],
                    vis_marker: None,
                    name: Ident(
                        c,
                    ),
                    tk_colon: Punct {
                        char: ':',
                        spacing: Alone,
                    },
                    ty: [
                        C,
                    ],
                },
                NamedField {
                    attributes: [],
                    vis_marker: None,
                    name: Ident(
                        d,
                    ),
                    tk_colon: Punct {
                        char: ':',
                        spacing: Alone,
                    },
                    ty: [
                        D,
                    ],
                },
            ],
        ),
        tk_semicolon: None,
    },
)"

/-! `parse_tuple_fields_attributes` -/
#guard shows Item.debug (checked [w "pub", w "struct", w "Hello", parens [pu '#', brackets [w "hello"], w "A", pu ',', w "B", pu ',', pu '#', brackets [w "hello"], pu '#', brackets [w "hello"], pu '#', brackets [w "hello"], w "C", pu ',', w "D", pu ','], pu ';']) "Struct(
    Struct {
        attributes: [],
        vis_marker: Some(
            pub,
        ),
        tk_struct: Ident(
            struct,
        ),
        name: Ident(
            Hello,
        ),
        generic_params: None,
        where_clause: None,
        fields: Tuple(
            [
                TupleField {
                    attributes: [
                        Attribute {
                            tk_hash: Punct {
                                char: '#',
                                spacing: Alone,
                            },
                            tk_brackets: [],
                            path: [
                                hello,
                            ],
                            value: Empty,
                        },
                    ],
                    vis_marker: None,
                    ty: [
                        A,
                    ],
                },
                TupleField {
                    attributes: [],
                    vis_marker: None,
                    ty: [
                        B,
                    ],
                },
                TupleField {
                    attributes: [
                        Attribute {
                            tk_hash: Punct {
                                char: '#',
                                spacing: Alone,
                            },
                            tk_brackets: [],
                            path: [
                                hello,
                            ],
                            value: Empty,
                        },
                        Attribute {
                            tk_hash: Punct {
                                char: '#',
                                spacing: Alone,
                            },
                            tk_brackets: [],
                            path: [
                                hello,
                            ],
                            value: Empty,
                        },
                        Attribute {
                            tk_hash: Punct {
                                char: '#',
                                spacing: Alone,
                            },
                            tk_brackets: [],
                            path: [
                                hello,
                            ],
                            value: Empty,
                        },
                    ],
                    vis_marker: None,
                    ty: [
                        C,
                    ],
                },
                TupleField {
                    attributes: [],
                    vis_marker: None,
                    ty: [
                        D,
                    ],
                },
            ],
        ),
        tk_semicolon: Some(
            Punct {
                char: ';',
                spacing: Alone,
            },
        ),
    },
)"

/-! `parse_complex_attributes` -/
#guard shows Item.debug (checked [pu '#', brackets [w "hello", pj ':', pu ':', w "world"], pu '#', brackets [w "hello", pu '=', w "a", pu '+', w "b"], pu '#', brackets [w "hello", pj ':', pu ':', w "world", pu '=', w "a", pu '+', w "b"], pu '#', brackets [w "hello", parens [w "a", w "b", w "c"]], pu '#', brackets [w "hello", pj ':', pu ':', w "world", parens [w "a", w "b", w "c"]], w "pub", w "struct", w "Hello", pu ';']) "Struct(
    Struct {
        attributes: [
            Attribute {
                tk_hash: Punct {
                    char: '#',
                    spacing: Alone,
                },
                tk_brackets: [],
                path: [
                    hello,
                    \":\",
                    \":\",
                    world,
                ],
                value: Empty,
            },
            Attribute {
                tk_hash: Punct {
                    char: '#',
                    spacing: Alone,
                },
                tk_brackets: [],
                path: [
                    hello,
                ],
                value: Equals(
                    [
                        a,
                        \"+\",
                        b,
                    ],
                    Punct {
                        char: '=',
                        spacing: Alone,
                    },
                ),
            },
            Attribute {
                tk_hash: Punct {
                    char: '#',
                    spacing: Alone,
                },
                tk_brackets: [],
                path: [
                    hello,
                    \":\",
                    \":\",
                    world,
                ],
                value: Equals(
                    [
                        a,
                        \"+\",
                        b,
                    ],
                    Punct {
                        char: '=',
                        spacing: Alone,
                    },
                ),
            },
            Attribute {
                tk_hash: Punct {
                    char: '#',
                    spacing: Alone,
                },
                tk_brackets: [],
                path: [
                    hello,
                ],
                value: Group(
                    [
                        a,
                        b,
                        c,
                    ],
                    (),
                ),
            },
            Attribute {
                tk_hash: Punct {
                    char: '#',
                    spacing: Alone,
                },
                tk_brackets: [],
                path: [
                    hello,
                    \":\",
                    \":\",
                    world,
                ],
                value: Group(
                    [
                        a,
                        b,
                        c,
                    ],
                    (),
                ),
            },
        ],
        vis_marker: Some(
            pub,
        ),
        tk_struct: Ident(
            struct,
        ),
        name: Ident(
            Hello,
        ),
        generic_params: None,
        where_clause: None,
        fields: Unit,
        tk_semicolon: Some(
            Punct {
                char: ';',
                spacing: Alone,
            },
        ),
    },
)"
#guard shows (debugOption Ident.debug) ((checked [pu '#', brackets [w "hello", pj ':', pu ':', w "world"], pu '#', brackets [w "hello", pu '=', w "a", pu '+', w "b"], pu '#', brackets [w "hello", pj ':', pu ':', w "world", pu '=', w "a", pu '+', w "b"], pu '#', brackets [w "hello", parens [w "a", w "b", w "c"]], pu '#', brackets [w "hello", pj ':', pu ':', w "world", parens [w "a", w "b", w "c"]], w "pub", w "struct", w "Hello", pu ';']).bind fun i => i.attributes[0]?.map fun a => a.get_single_path_segment) "None"
#guard shows (debugOption Ident.debug) ((checked [pu '#', brackets [w "hello", pj ':', pu ':', w "world"], pu '#', brackets [w "hello", pu '=', w "a", pu '+', w "b"], pu '#', brackets [w "hello", pj ':', pu ':', w "world", pu '=', w "a", pu '+', w "b"], pu '#', brackets [w "hello", parens [w "a", w "b", w "c"]], pu '#', brackets [w "hello", pj ':', pu ':', w "world", parens [w "a", w "b", w "c"]], w "pub", w "struct", w "Hello", pu ';']).bind fun i => i.attributes[1]?.map fun a => a.get_single_path_segment) "Some(
    Ident(
        hello,
    ),
)"

/-! `parse_unit_struct_where_clause` -/
#guard shows Item.debug (checked [w "struct", w "Hello", w "where", w "A", pu ':', w "B", pu ',', w "C", pu '<', w "D", pu '>', pu ':', w "E", pu '<', w "F", pu '>', pu ';']) "Struct(
    Struct {
        attributes: [],
        vis_marker: None,
        tk_struct: Ident(
            struct,
        ),
        name: Ident(
            Hello,
        ),
        generic_params: None,
        where_clause: Some(
            [
                [
                    A,
                    \":\",
                    B,
                ],
                [
                    C,
                    \"<\",
                    D,
                    \">\",
                    \":\",
                    E,
                    \"<\",
                    F,
                    \">\",
                ],
            ],
        ),
        fields: Unit,
        tk_semicolon: Some(
            Punct {
                char: ';',
                spacing: Alone,
            },
        ),
    },
)"

/-! `parse_tuple_struct_where_clause` -/
#guard shows Item.debug (checked [w "struct", w "Hello", parens [w "A", pu ',', w "B"], w "where", w "A", pu ':', w "B", pu ',', w "C", pu '<', w "D", pu '>', pu ':', w "E", pu '<', w "F", pu '>', pu ';']) "Struct(
    Struct {
        attributes: [],
        vis_marker: None,
        tk_struct: Ident(
            struct,
        ),
        name: Ident(
            Hello,
        ),
        generic_params: None,
        where_clause: Some(
            [
                [
                    A,
                    \":\",
                    B,
                ],
                [
                    C,
                    \"<\",
                    D,
                    \">\",
                    \":\",
                    E,
                    \"<\",
                    F,
                    \">\",
                ],
            ],
        ),
        fields: Tuple(
            [
                TupleField {
                    attributes: [],
                    vis_marker: None,
                    ty: [
                        A,
                    ],
                },
                TupleField {
                    attributes: [],
                    vis_marker: None,
                    ty: [
                        B,
                    ],
                },
            ],
        ),
        tk_semicolon: Some(
            Punct {
                char: ';',
                spacing: Alone,
            },
        ),
    },
)"

/-! `parse_normal_struct_where_clause` -/
#guard shows Item.debug (checked [w "struct", w "Hello", w "where", w "A", pu ':', w "B", pu ',', w "C", pu '<', w "D", pu '>', pu ':', w "E", pu '<', w "F", pu '>', pu ',', braces [w "a", pu ':', w "A", pu ',', w "b", pu ':', w "B", pu ',']]) "Struct(
    Struct {
        attributes: [],
        vis_marker: None,
        tk_struct: Ident(
            struct,
        ),
        name: Ident(
            Hello,
        ),
        generic_params: None,
        where_clause: Some(
            [
                [
                    A,
                    \":\",
                    B,
                ],
                [
                    C,
                    \"<\",
                    D,
                    \">\",
                    \":\",
                    E,
                    \"<\",
                    F,
                    \">\",
                ],
            ],
        ),
        fields: Named(
            [
                NamedField {
                    attributes: [],
                    vis_marker: None,
                    name: Ident(
                        a,
                    ),
                    tk_colon: Punct {
                        char: ':',
                        spacing: Alone,
                    },
                    ty: [
                        A,
                    ],
                },
                NamedField {
                    attributes: [],
                    vis_marker: None,
                    name: Ident(
                        b,
                    ),
                    tk_colon: Punct {
                        char: ':',
                        spacing: Alone,
                    },
                    ty: [
                        B,
                    ],
                },
            ],
        ),
        tk_semicolon: None,
    },
)"

/-! `parse_enum_where_clause` -/
#guard shows Item.debug (checked [w "enum", w "Hello", w "where", w "A", pu ':', w "B", pu ',', w "C", pu '<', w "D", pu '>', pu ':', w "E", pu '<', w "F", pu '>', pu ',', braces [w "A", pu ',', w "B", parens [w "Foo", pu ',', w "Bar"], pu ',', w "C", braces [w "foo", pu ':', w "Foo", pu ',', w "bar", pu ':', w "Bar"], pu ',']]) "Enum(
    Enum {
        attributes: [],
        vis_marker: None,
        tk_enum: Ident(
            enum,
        ),
        name: Ident(
            Hello,
        ),
        generic_params: None,
        where_clauses: Some(
            [
                [
                    A,
                    \":\",
                    B,
                ],
                [
                    C,
                    \"<\",
                    D,
                    \">\",
                    \":\",
                    E,
                    \"<\",
                    F,
                    \">\",
                ],
            ],
        ),
        variants: [
            EnumVariant {
                attributes: [],
                vis_marker: None,
                name: Ident(
                    A,
                ),
                fields: Unit,
                value: None,
            },
            EnumVariant {
                attributes: [],
                vis_marker: None,
                name: Ident(
                    B,
                ),
                fields: Tuple(
                    [
                        TupleField {
                            attributes: [],
                            vis_marker: None,
                            ty: [
                                Foo,
                            ],
                        },
                        TupleField {
                            attributes: [],
                            vis_marker: None,
                            ty: [
                                Bar,
                            ],
                        },
                    ],
                ),
                value: None,
            },
            EnumVariant {
                attributes: [],
                vis_marker: None,
                name: Ident(
                    C,
                ),
                fields: Named(
                    [
                        NamedField {
                            attributes: [],
                            vis_marker: None,
                            name: Ident(
                                foo,
                            ),
                            tk_colon: Punct {
                                char: ':',
                                spacing: Alone,
                            },
                            ty: [
                                Foo,
                            ],
                        },
                        NamedField {
                            attributes: [],
                            vis_marker: None,
                            name: Ident(
                                bar,
                            ),
                            tk_colon: Punct {
                                char: ':',
                                spacing: Alone,
                            },
                            ty: [
                                Bar,
                            ],
                        },
                    ],
                ),
                value: None,
            },
        ],
    },
)"

/-! `parse_unit_struct_empty_where_clause` -/
#guard shows Item.debug (checked [w "struct", w "Hello", w "where", pu ';']) "Struct(
    Struct {
        attributes: [],
        vis_marker: None,
        tk_struct: Ident(
            struct,
        ),
        name: Ident(
            Hello,
        ),
        generic_params: None,
        where_clause: Some(
            [],
        ),
        fields: Unit,
        tk_semicolon: Some(
            Punct {
                char: ';',
                spacing: Alone,
            },
        ),
    },
)"

/-! `parse_tuple_struct_empty_where_clause` -/
#guard shows Item.debug (checked [w "struct", w "Hello", parens [w "A", pu ',', w "B"], w "where", pu ';']) "Struct(
    Struct {
        attributes: [],
        vis_marker: None,
        tk_struct: Ident(
            struct,
        ),
        name: Ident(
            Hello,
        ),
        generic_params: None,
        where_clause: Some(
            [],
        ),
        fields: Tuple(
            [
                TupleField {
                    attributes: [],
                    vis_marker: None,
                    ty: [
                        A,
                    ],
                },
                TupleField {
                    attributes: [],
                    vis_marker: None,
                    ty: [
                        B,
                    ],
                },
            ],
        ),
        tk_semicolon: Some(
            Punct {
                char: ';',
                spacing: Alone,
            },
        ),
    },
)"

/-! `parse_normal_struct_empty_where_clause` -/
#guard shows Item.debug (checked [w "struct", w "Hello", w "where", braces [w "a", pu ':', w "A", pu ',', w "b", pu ':', w "B", pu ',']]) "Struct(
    Struct {
        attributes: [],
        vis_marker: None,
        tk_struct: Ident(
            struct,
        ),
        name: Ident(
            Hello,
        ),
        generic_params: None,
        where_clause: Some(
            [],
        ),
        fields: Named(
            [
                NamedField {
                    attributes: [],
                    vis_marker: None,
                    name: Ident(
                        a,
                    ),
                    tk_colon: Punct {
                        char: ':',
                        spacing: Alone,
                    },
                    ty: [
                        A,
                    ],
                },
                NamedField {
                    attributes: [],
                    vis_marker: None,
                    name: Ident(
                        b,
                    ),
                    tk_colon: Punct {
                        char: ':',
                        spacing: Alone,
                    },
                    ty: [
                        B,
                    ],
                },
            ],
        ),
        tk_semicolon: None,
    },
)"

/-! `parse_enum_empty_where_clause` -/
#guard shows Item.debug (checked [w "enum", w "Hello", w "where", braces [w "A", pu ',', w "B", parens [w "Foo", pu ',', w "Bar"], pu ',', w "C", braces [w "foo", pu ':', w "Foo", pu ',', w "bar", pu ':', w "Bar"], pu ',']]) "Enum(
    Enum {
        attributes: [],
        vis_marker: None,
        tk_enum: Ident(
            enum,
        ),
        name: Ident(
            Hello,
        ),
        generic_params: None,
        where_clauses: Some(
            [],
        ),
        variants: [
            EnumVariant {
                attributes: [],
                vis_marker: None,
                name: Ident(
                    A,
                ),
                fields: Unit,
                value: None,
            },
            EnumVariant {
                attributes: [],
                vis_marker: None,
                name: Ident(
                    B,
                ),
                fields: Tuple(
                    [
                        TupleField {
                            attributes: [],
                            vis_marker: None,
                            ty: [
                                Foo,
                            ],
                        },
                        TupleField {
                            attributes: [],
                            vis_marker: None,
                            ty: [
                                Bar,
                            ],
                        },
                    ],
                ),
                value: None,
            },
            EnumVariant {
                attributes: [],
                vis_marker: None,
                name: Ident(
                    C,
                ),
                fields: Named(
                    [
                        NamedField {
                            attributes: [],
                            vis_marker: None,
                            name: Ident(
                                foo,
                            ),
                            tk_colon: Punct {
                                char: ':',
                                spacing: Alone,
                            },
                            ty: [
                                Foo,
                            ],
                        },
                        NamedField {
                            attributes: [],
                            vis_marker: None,
                            name: Ident(
                                bar,
                            ),
                            tk_colon: Punct {
                                char: ':',
                                spacing: Alone,
                            },
                            ty: [
                                Bar,
                            ],
                        },
                    ],
                ),
                value: None,
            },
        ],
    },
)"

/-! `parse_unit_struct_generic_params` -/
#guard shows Item.debug (checked [w "struct", w "Hello", pu '<', w "X", pu ',', w "Y", pu ':', w "Z", pu '<', w "A", pu '>', pu ',', w "Z", pu '>', pu ';']) "Struct(
    Struct {
        attributes: [],
        vis_marker: None,
        tk_struct: Ident(
            struct,
        ),
        name: Ident(
            Hello,
        ),
        generic_params: Some(
            [
                GenericParam {
                    name: \"X\",
                    bound: None,
                },
                GenericParam {
                    name: \"Y\",
                    bound: Some(
                        [
                            Z,
                            \"<\",
                            A,
                            \">\",
                        ],
                    ),
                },
                GenericParam {
                    name: \"Z\",
                    bound: None,
                },
            ],
        ),
        where_clause: None,
        fields: Unit,
        tk_semicolon: Some(
            Punct {
                char: ';',
                spacing: Alone,
            },
        ),
    },
)"

/-! `parse_tuple_struct_generic_params` -/
#guard shows Item.debug (checked [w "struct", w "Hello", pu '<', w "X", pu ',', w "Y", pu ':', w "Z", pu '<', w "A", pu '>', pu ',', w "Z", pu '>', parens [w "A", pu ',', w "B"], pu ';']) "Struct(
    Struct {
        attributes: [],
        vis_marker: None,
        tk_struct: Ident(
            struct,
        ),
        name: Ident(
            Hello,
        ),
        generic_params: Some(
            [
                GenericParam {
                    name: \"X\",
                    bound: None,
                },
                GenericParam {
                    name: \"Y\",
                    bound: Some(
                        [
                            Z,
                            \"<\",
                            A,
                            \">\",
                        ],
                    ),
                },
                GenericParam {
                    name: \"Z\",
                    bound: None,
                },
            ],
        ),
        where_clause: None,
        fields: Tuple(
            [
                TupleField {
                    attributes: [],
                    vis_marker: None,
                    ty: [
                        A,
                    ],
                },
                TupleField {
                    attributes: [],
                    vis_marker: None,
                    ty: [
                        B,
                    ],
                },
            ],
        ),
        tk_semicolon: Some(
            Punct {
                char: ';',
                spacing: Alone,
            },
        ),
    },
)"

/-! `parse_normal_struct_generic_params` -/
#guard shows Item.debug (checked [w "struct", w "Hello", pu '<', w "X", pu ',', w "Y", pu ':', w "Z", pu '<', w "A", pu '>', pu ',', w "Z", pu '>', braces [w "a", pu ':', w "A", pu ',', w "b", pu ':', w "B", pu '<', w "X", pu ',', w "Y", pu ',', w "Z", pu '>', pu ',']]) "Struct(
    Struct {
        attributes: [],
        vis_marker: None,
        tk_struct: Ident(
            struct,
        ),
        name: Ident(
            Hello,
        ),
        generic_params: Some(
            [
                GenericParam {
                    name: \"X\",
                    bound: None,
                },
                GenericParam {
                    name: \"Y\",
                    bound: Some(
                        [
                            Z,
                            \"<\",
                            A,
                            \">\",
                        ],
                    ),
                },
                GenericParam {
                    name: \"Z\",
                    bound: None,
                },
            ],
        ),
        where_clause: None,
        fields: Named(
            [
                NamedField {
                    attributes: [],
                    vis_marker: None,
                    name: Ident(
                        a,
                    ),
                    tk_colon: Punct {
                        char: ':',
                        spacing: Alone,
                    },
                    ty: [
                        A,
                    ],
                },
                NamedField {
                    attributes: [],
                    vis_marker: None,
                    name: Ident(
                        b,
                    ),
                    tk_colon: Punct {
                        char: ':',
                        spacing: Alone,
                    },
                    ty: [
                        B,
                        \"<\",
                        X,
                        \",\",
                        Y,
                        \",\",
                        Z,
                        \">\",
                    ],
                },
            ],
        ),
        tk_semicolon: None,
    },
)"

/-! `parse_enum_generic_params` -/
#guard shows Item.debug (checked [w "enum", w "Hello", pu '<', w "X", pu ',', w "Y", pu ':', w "Z", pu '<', w "A", pu '>', pu ',', w "Z", pu '>', braces [w "A", pu ',', w "B", parens [w "Foo", pu ',', w "Bar", pu '<', w "X", pu ',', w "Y", pu ',', w "Z", pu '>'], pu ',', w "C", braces [w "foo", pu ':', w "Foo", pu '<', w "X", pu ',', w "Y", pu ',', w "Z", pu '>', pu ',', w "bar", pu ':', w "Bar"], pu ',']]) "Enum(
    Enum {
        attributes: [],
        vis_marker: None,
        tk_enum: Ident(
            enum,
        ),
        name: Ident(
            Hello,
        ),
        generic_params: Some(
            [
                GenericParam {
                    name: \"X\",
                    bound: None,
                },
                GenericParam {
                    name: \"Y\",
                    bound: Some(
                        [
                            Z,
                            \"<\",
                            A,
                            \">\",
                        ],
                    ),
                },
                GenericParam {
                    name: \"Z\",
                    bound: None,
                },
            ],
        ),
        where_clauses: None,
        variants: [
            EnumVariant {
                attributes: [],
                vis_marker: None,
                name: Ident(
                    A,
                ),
                fields: Unit,
                value: None,
            },
            EnumVariant {
                attributes: [],
                vis_marker: None,
                name: Ident(
                    B,
                ),
                fields: Tuple(
                    [
                        TupleField {
                            attributes: [],
                            vis_marker: None,
                            ty: [
                                Foo,
                            ],
                        },
                        TupleField {
                            attributes: [],
                            vis_marker: None,
                            ty: [
                                Bar,
                                \"<\",
                                X,
                                \",\",
                                Y,
                                \",\",
                                Z,
                                \">\",
                            ],
                        },
                    ],
                ),
                value: None,
            },
            EnumVariant {
                attributes: [],
                vis_marker: None,
                name: Ident(
                    C,
                ),
                fields: Named(
                    [
                        NamedField {
                            attributes: [],
                            vis_marker: None,
                            name: Ident(
                                foo,
                            ),
                            tk_colon: Punct {
                                char: ':',
                                spacing: Alone,
                            },
                            ty: [
                                Foo,
                                \"<\",
                                X,
                                \",\",
                                Y,
                                \",\",
                                Z,
                                \">\",
                            ],
                        },
                        NamedField {
                            attributes: [],
                            vis_marker: None,
                            name: Ident(
                                bar,
                            ),
                            tk_colon: Punct {
                                char: ':',
                                spacing: Alone,
                            },
                            ty: [
                                Bar,
                            ],
                        },
                    ],
                ),
                value: None,
            },
        ],
    },
)"

/-! `parse_enum_empty_generic_params` -/
#guard shows Item.debug (checked [w "enum", w "Hello", pu '<', pu '>', w "where", w "A", pu '<', pu '>', pu ':', w "B", pu '<', pu '>', pu ',', braces [w "A", pu ',', w "B", parens [w "Foo", pu ',', w "Bar", pu '<', pu '>'], pu ',', w "C", braces [w "foo", pu ':', w "Foo", pu '<', pu '>', pu ',', w "bar", pu ':', w "Bar"], pu ',']]) "Enum(
    Enum {
        attributes: [],
        vis_marker: None,
        tk_enum: Ident(
            enum,
        ),
        name: Ident(
            Hello,
        ),
        generic_params: Some(
            [],
        ),
        where_clauses: Some(
            [
                [
                    A,
                    \"<\",
                    \">\",
                    \":\",
                    B,
                    \"<\",
                    \">\",
                ],
            ],
        ),
        variants: [
            EnumVariant {
                attributes: [],
                vis_marker: None,
                name: Ident(
                    A,
                ),
                fields: Unit,
                value: None,
            },
            EnumVariant {
                attributes: [],
                vis_marker: None,
                name: Ident(
                    B,
                ),
                fields: Tuple(
                    [
                        TupleField {
                            attributes: [],
                            vis_marker: None,
                            ty: [
                                Foo,
                            ],
                        },
                        TupleField {
                            attributes: [],
                            vis_marker: None,
                            ty: [
                                Bar,
                                \"<\",
                                \">\",
                            ],
                        },
                    ],
                ),
                value: None,
            },
            EnumVariant {
                attributes: [],
                vis_marker: None,
                name: Ident(
                    C,
                ),
                fields: Named(
                    [
                        NamedField {
                            attributes: [],
                            vis_marker: None,
                            name: Ident(
                                foo,
                            ),
                            tk_colon: Punct {
                                char: ':',
                                spacing: Alone,
                            },
                            ty: [
                                Foo,
                                \"<\",
                                \">\",
                            ],
                        },
                        NamedField {
                            attributes: [],
                            vis_marker: None,
                            name: Ident(
                                bar,
                            ),
                            tk_colon: Punct {
                                char: ':',
                                spacing: Alone,
                            },
                            ty: [
                                Bar,
                            ],
                        },
                    ],
                ),
                value: None,
            },
        ],
    },
)"

/-! `parse_generic_args` -/
#guard shows GenericArgList.debug (args [pu '<', pj '\'', w "a", pu ',', w "path", pj ':', pu ':', w "to", pj ':', pu ':', w "Type", pu ',', lit "15", pu ',', w "Item", pu '=', w "i32", pu ',', w "module", pj ':', pu ':', w "NestedType", pu '<', w "another", pj ':', pu ':', w "Type", pj '>', pu '>']) "GenericArgList {
    args: [
        Lifetime {
            lifetime: Lifetime {
                tk_apostrophe: Punct {
                    char: '\\'',
                    spacing: Joint,
                },
                name: Ident(
                    a,
                ),
            },
        },
        TypeOrConst {
            expr: [
                path,
                \":\",
                \":\",
                to,
                \":\",
                \":\",
                Type,
            ],
        },
        TypeOrConst {
            expr: [
                15,
            ],
        },
        Binding {
            ident: Ident(
                Item,
            ),
            tk_equals: Punct {
                char: '=',
                spacing: Alone,
            },
            ty: [
                i32,
            ],
        },
        TypeOrConst {
            expr: [
                module,
                \":\",
                \":\",
                NestedType,
                \"<\",
                another,
                \":\",
                \":\",
                Type,
                \">\",
            ],
        },
    ],
}"

/-! `parse_generic_args_turbofish` -/
#guard shows GenericArgList.debug (args [pj ':', pu ':', pu '<', pu '>']) "GenericArgList {
    tk_turbofish_colons: \"::\",
    args: [],
}"

/-! `parse_inline_generic_args` -/
#guard shows GenericParamList.debug ((checked [w "struct", w "Hello", pu '<', pj '\'', w "a", pu ':', pj '\'', w "static", pu ',', w "T", pu ',', w "U", pu ':', w "Clone", pu ',', w "const", w "N", pu ':', w "usize", pu '>', braces []]).bind fun i => i.generic_params) "[
    GenericParam {
        tk_prefix: \"'\",
        name: \"a\",
        bound: Some(
            [
                \"'\",
                static,
            ],
        ),
    },
    GenericParam {
        name: \"T\",
        bound: None,
    },
    GenericParam {
        name: \"U\",
        bound: Some(
            [
                Clone,
            ],
        ),
    },
    GenericParam {
        tk_prefix: \"const\",
        name: \"N\",
        bound: Some(
            [
                usize,
            ],
        ),
    },
]"
#guard shows GenericArgList.debug (((checked [w "struct", w "Hello", pu '<', pj '\'', w "a", pu ':', pj '\'', w "static", pu ',', w "T", pu ',', w "U", pu ':', w "Clone", pu ',', w "const", w "N", pu ':', w "usize", pu '>', braces []]).bind fun i => i.generic_params).bind fun p => owned p) "GenericArgList {
    args: [
        Lifetime {
            lifetime: Lifetime {
                tk_apostrophe: Punct {
                    char: '\\'',
                    spacing: Joint,
                },
                name: Ident(
                    a,
                ),
            },
        },
        TypeOrConst {
            expr: [
                T,
            ],
        },
        TypeOrConst {
            expr: [
                U,
            ],
        },
        TypeOrConst {
            expr: [
                N,
            ],
        },
    ],
}"

/-! `parse_complex_enum_variant` -/
#guard shows (debugResult Item.debug) (result [w "enum", w "Hello", braces [w "A", pu '=', lit "1", pu ',', w "B", parens [w "Foo", pu ',', w "Bar"], pu '=', lit "1", pu '+', lit "2", pu '+', lit "3", pu ',']]) "Err(
    Error(
        \"Complex values for enum variants are not supported unless they are between parentheses.\",
    ),
)"
#guard shows (debugResult Item.debug) (result [w "enum", w "Hello", braces [w "A", pu '=', lit "1", pu ',', w "B", braces [w "foo", pu ':', w "Foo", pu ',', w "bar", pu ':', w "Bar"], pu '=', w "foo", parens [w "bar"], pu ',']]) "Err(
    Error(
        \"Complex values for enum variants are not supported unless they are between parentheses.\",
    ),
)"
#guard shows (debugResult Item.debug) (result [w "enum", w "Hello", braces [w "A", pu '=', lit "1", pu ',', w "B", parens [w "Foo", pu ',', w "Bar"], pu '=', brackets [lit "1", pu '+', lit "2", pu '+', lit "3"], pu ',', w "C", braces [w "foo", pu ':', w "Foo", pu ',', w "bar", pu ':', w "Bar"], pu '=', parens [w "foo", parens [w "bar"]], pu ',']]) "Ok(
    Enum(
        Enum {
            attributes: [],
            vis_marker: None,
            tk_enum: Ident(
                enum,
            ),
            name: Ident(
                Hello,
            ),
            generic_params: None,
            where_clauses: None,
            variants: [
                EnumVariant {
                    attributes: [],
                    vis_marker: None,
                    name: Ident(
                        A,
                    ),
                    fields: Unit,
                    value: Some(
                        EnumVariantValue {
                            tk_equal: Punct {
                                char: '=',
                                spacing: Alone,
                            },
                            value: Literal {
                                lit: 1,
                            },
                        },
                    ),
                },
                EnumVariant {
                    attributes: [],
                    vis_marker: None,
                    name: Ident(
                        B,
                    ),
                    fields: Tuple(
                        [
                            TupleField {
                                attributes: [],
                                vis_marker: None,
                                ty: [
                                    Foo,
                                ],
                            },
                            TupleField {
                                attributes: [],
                                vis_marker: None,
                                ty: [
                                    Bar,
                                ],
                            },
                        ],
                    ),
                    value: Some(
                        EnumVariantValue {
                            tk_equal: Punct {
                                char: '=',
                                spacing: Alone,
                            },
                            value: Group {
                                delimiter: Bracket,
                                stream: TokenStream [
                                    Literal {
                                        lit: 1,
                                    },
                                    Punct {
                                        char: '+',
                                        spacing: Alone,
                                    },
                                    Literal {
                                        lit: 2,
                                    },
                                    Punct {
                                        char: '+',
                                        spacing: Alone,
                                    },
                                    Literal {
                                        lit: 3,
                                    },
                                ],
                            },
                        },
                    ),
                },
                EnumVariant {
                    attributes: [],
                    vis_marker: None,
                    name: Ident(
                        C,
                    ),
                    fields: Named(
                        [
                            NamedField {
                                attributes: [],
                                vis_marker: None,
                                name: Ident(
                                    foo,
                                ),
                                tk_colon: Punct {
                                    char: ':',
                                    spacing: Alone,
                                },
                                ty: [
                                    Foo,
                                ],
                            },
                            NamedField {
                                attributes: [],
                                vis_marker: None,
                                name: Ident(
                                    bar,
                                ),
                                tk_colon: Punct {
                                    char: ':',
                                    spacing: Alone,
                                },
                                ty: [
                                    Bar,
                                ],
                            },
                        ],
                    ),
                    value: Some(
                        EnumVariantValue {
                            tk_equal: Punct {
                                char: '=',
                                spacing: Alone,
                            },
                            value: Group {
                                delimiter: Parenthesis,
                                stream: TokenStream [
                                    Ident {
                                        sym: foo,
                                    },
                                    Group {
                                        delimiter: Parenthesis,
                                        stream: TokenStream [
                                            Ident {
                                                sym: bar,
                                            },
                                        ],
                                    },
                                ],
                            },
                        },
                    ),
                },
            ],
        },
    ),
)"

/-! `parse_enum_with_macro` -/
#guard panics [w "enum", w "Hello", braces [w "A", pu '=', lit "1", pu ',', w "macroified", pu '!', braces [w "B", pu '=', lit "2"], pu ',', w "macroified", pu '!', parens [w "B", pu ';', lit "2"], pu ',']]

/-! `parse_const_generics` -/
#guard shows Item.debug (checked [w "struct", w "Hello", parens [w "Array", pu '<', w "A", pu ',', braces [lit "123", pu '+', parens [lit "1", pu ',', lit "2", pu ',', lit "3"]], pu '>', pu ',', w "B", pu '<', braces [lit "1"], pu ',', braces [lit "2"], pu '>'], pu ';']) "Struct(
    Struct {
        attributes: [],
        vis_marker: None,
        tk_struct: Ident(
            struct,
        ),
        name: Ident(
            Hello,
        ),
        generic_params: None,
        where_clause: None,
        fields: Tuple(
            [
                TupleField {
                    attributes: [],
                    vis_marker: None,
                    ty: [
                        Array,
                        \"<\",
                        A,
                        \",\",
                        Group {
                            delimiter: Brace,
                            stream: TokenStream [
                                Literal {
                                    lit: 123,
                                },
                                Punct {
                                    char: '+',
                                    spacing: Alone,
                                },
                                Group {
                                    delimiter: Parenthesis,
                                    stream: TokenStream [
                                        Literal {
                                            lit: 1,
                                        },
                                        Punct {
                                            char: ',',
                                            spacing: Alone,
                                        },
                                        Literal {
                                            lit: 2,
                                        },
                                        Punct {
                                            char: ',',
                                            spacing: Alone,
                                        },
                                        Literal {
                                            lit: 3,
                                        },
                                    ],
                                },
                            ],
                        },
                        \">\",
                    ],
                },
                TupleField {
                    attributes: [],
                    vis_marker: None,
                    ty: [
                        B,
                        \"<\",
                        Group {
                            delimiter: Brace,
                            stream: TokenStream [
                                Literal {
                                    lit: 1,
                                },
                            ],
                        },
                        \",\",
                        Group {
                            delimiter: Brace,
                            stream: TokenStream [
                                Literal {
                                    lit: 2,
                                },
                            ],
                        },
                        \">\",
                    ],
                },
            ],
        ),
        tk_semicolon: Some(
            Punct {
                char: ';',
                spacing: Alone,
            },
        ),
    },
)"

/-! `parse_fn_traits` -/
#guard shows Item.debug (checked [w "struct", w "Hello", parens [w "fn", parens [w "A", pu ',', w "B"], pj '-', pu '>', w "C", pu ',', w "A", pu '<', w "FnOnce", parens [w "A", pu ',', w "B", pu ',', w "C", pu '<', w "D", pu '>'], pj '-', pu '>', w "E", pu ','], pu ';']) "Struct(
    Struct {
        attributes: [],
        vis_marker: None,
        tk_struct: Ident(
            struct,
        ),
        name: Ident(
            Hello,
        ),
        generic_params: None,
        where_clause: None,
        fields: Tuple(
            [
                TupleField {
                    attributes: [],
                    vis_marker: None,
                    ty: [
                        fn,
                        Group {
                            delimiter: Parenthesis,
                            stream: TokenStream [
                                Ident {
                                    sym: A,
                                },
                                Punct {
                                    char: ',',
                                    spacing: Alone,
                                },
                                Ident {
                                    sym: B,
                                },
                            ],
                        },
                        \"-\",
                        \">\",
                        C,
                    ],
                },
                TupleField {
                    attributes: [],
                    vis_marker: None,
                    ty: [
                        A,
                        \"<\",
                        FnOnce,
                        Group {
                            delimiter: Parenthesis,
                            stream: TokenStream [
                                Ident {
                                    sym: A,
                                },
                                Punct {
                                    char: ',',
                                    spacing: Alone,
                                },
                                Ident {
                                    sym: B,
                                },
                                Punct {
                                    char: ',',
                                    spacing: Alone,
                                },
                                Ident {
                                    sym: C,
                                },
                                Punct {
                                    char: '<',
                                    spacing: Alone,
                                },
                                Ident {
                                    sym: D,
                                },
                                Punct {
                                    char: '>',
                                    spacing: Alone,
                                },
                            ],
                        },
                        \"-\",
                        \">\",
                        E,
                        \",\",
                    ],
                },
            ],
        ),
        tk_semicolon: Some(
            Punct {
                char: ';',
                spacing: Alone,
            },
        ),
    },
)"

/-! `parse_multiple_brackets` -/
#guard shows Item.debug (checked [w "struct", w "Hello", parens [w "A", pu '<', w "B", pu '<', w "C", pj '>', pu '>', pu ',', w "A", pu '<', w "B", pu '<', w "C", pu ',', w "D", pj '>', pu '>', pu ',', pj '<', pu '<', w "D", w "as", w "Trait", pu '>', pj ':', pu ':', w "X", w "as", w "Trait", pu '>', pj ':', pu ':', w "Y", pu ','], pu ';']) "Struct(
    Struct {
        attributes: [],
        vis_marker: None,
        tk_struct: Ident(
            struct,
        ),
        name: Ident(
            Hello,
        ),
        generic_params: None,
        where_clause: None,
        fields: Tuple(
            [
                TupleField {
                    attributes: [],
                    vis_marker: None,
                    ty: [
                        A,
                        \"<\",
                        B,
                        \"<\",
                        C,
                        \">\",
                        \">\",
                    ],
                },
                TupleField {
                    attributes: [],
                    vis_marker: None,
                    ty: [
                        A,
                        \"<\",
                        B,
                        \"<\",
                        C,
                        \",\",
                        D,
                        \">\",
                        \">\",
                    ],
                },
                TupleField {
                    attributes: [],
                    vis_marker: None,
                    ty: [
                        \"<\",
                        \"<\",
                        D,
                        as,
                        Trait,
                        \">\",
                        \":\",
                        \":\",
                        X,
                        as,
                        Trait,
                        \">\",
                        \":\",
                        \":\",
                        Y,
                    ],
                },
            ],
        ),
        tk_semicolon: Some(
            Punct {
                char: ';',
                spacing: Alone,
            },
        ),
    },
)"

/-! `parse_bounded_type_param_no_comma` -/
#guard shows Item.debug (checked [w "struct", w "Example", pu '<', w "A", pu ':', w "Clone", pu '>', braces [w "_test", pu ':', w "A", pu ',']]) "Struct(
    Struct {
        attributes: [],
        vis_marker: None,
        tk_struct: Ident(
            struct,
        ),
        name: Ident(
            Example,
        ),
        generic_params: Some(
            [
                GenericParam {
                    name: \"A\",
                    bound: Some(
                        [
                            Clone,
                        ],
                    ),
                },
            ],
        ),
        where_clause: None,
        fields: Named(
            [
                NamedField {
                    attributes: [],
                    vis_marker: None,
                    name: Ident(
                        _test,
                    ),
                    tk_colon: Punct {
                        char: ':',
                        spacing: Alone,
                    },
                    ty: [
                        A,
                    ],
                },
            ],
        ),
        tk_semicolon: None,
    },
)"

/-! `parse_macro_in_where_clause` -/
#guard panics [w "enum", w "A", w "where", w "b", pu ':', w "c", pu '!', braces [pu ':'], pu ',', braces []]

/-! `parse_fn` -/
#guard shows Item.debug (item [w "fn", w "hello", parens [w "a", pu ':', w "i32", pu ',', w "b", pu ':', w "f32"], pj '-', pu '>', w "String", braces []]) "Function(
    Function {
        attributes: [],
        vis_marker: None,
        qualifiers: FnQualifiers {
            tk_default: None,
            tk_const: None,
            tk_async: None,
            tk_unsafe: None,
            tk_extern: None,
            extern_abi: None,
        },
        tk_fn_keyword: Ident(
            fn,
        ),
        name: Ident(
            hello,
        ),
        generic_params: None,
        tk_params_parens: (),
        params: [
            Typed(
                FnTypedParam {
                    attributes: [],
                    tk_mut: None,
                    name: Ident(
                        a,
                    ),
                    tk_colon: Punct {
                        char: ':',
                        spacing: Alone,
                    },
                    ty: [
                        i32,
                    ],
                },
            ),
            Typed(
                FnTypedParam {
                    attributes: [],
                    tk_mut: None,
                    name: Ident(
                        b,
                    ),
                    tk_colon: Punct {
                        char: ':',
                        spacing: Alone,
                    },
                    ty: [
                        f32,
                    ],
                },
            ),
        ],
        where_clause: None,
        tk_return_arrow: Some(
            [
                Punct {
                    char: '-',
                    spacing: Joint,
                },
                Punct {
                    char: '>',
                    spacing: Alone,
                },
            ],
        ),
        return_ty: Some(
            [
                String,
            ],
        ),
        tk_semicolon: None,
        body: Some(
            Group {
                delimiter: Brace,
                stream: TokenStream [],
            },
        ),
    },
)"

/-! `parse_empty_fn` -/
#guard shows Item.debug (item [w "fn", w "test_me", parens [], braces []]) "Function(
    Function {
        attributes: [],
        vis_marker: None,
        qualifiers: FnQualifiers {
            tk_default: None,
            tk_const: None,
            tk_async: None,
            tk_unsafe: None,
            tk_extern: None,
            extern_abi: None,
        },
        tk_fn_keyword: Ident(
            fn,
        ),
        name: Ident(
            test_me,
        ),
        generic_params: None,
        tk_params_parens: (),
        params: [],
        where_clause: None,
        tk_return_arrow: None,
        return_ty: None,
        tk_semicolon: None,
        body: Some(
            Group {
                delimiter: Brace,
                stream: TokenStream [],
            },
        ),
    },
)"

/-! `parse_generic_fn` -/
#guard shows Item.debug (item [w "fn", w "generic", pu '<', w "T", pu ',', w "B", pu '>', parens [w "a", pu ':', w "T"], pj '-', pu '>', w "B", braces []]) "Function(
    Function {
        attributes: [],
        vis_marker: None,
        qualifiers: FnQualifiers {
            tk_default: None,
            tk_const: None,
            tk_async: None,
            tk_unsafe: None,
            tk_extern: None,
            extern_abi: None,
        },
        tk_fn_keyword: Ident(
            fn,
        ),
        name: Ident(
            generic,
        ),
        generic_params: Some(
            [
                GenericParam {
                    name: \"T\",
                    bound: None,
                },
                GenericParam {
                    name: \"B\",
                    bound: None,
                },
            ],
        ),
        tk_params_parens: (),
        params: [
            Typed(
                FnTypedParam {
                    attributes: [],
                    tk_mut: None,
                    name: Ident(
                        a,
                    ),
                    tk_colon: Punct {
                        char: ':',
                        spacing: Alone,
                    },
                    ty: [
                        T,
                    ],
                },
            ),
        ],
        where_clause: None,
        tk_return_arrow: Some(
            [
                Punct {
                    char: '-',
                    spacing: Joint,
                },
                Punct {
                    char: '>',
                    spacing: Alone,
                },
            ],
        ),
        return_ty: Some(
            [
                B,
            ],
        ),
        tk_semicolon: None,
        body: Some(
            Group {
                delimiter: Brace,
                stream: TokenStream [],
            },
        ),
    },
)"

/-! `parse_where_fn` -/
#guard shows Item.debug (item [w "fn", w "where_clause", pu '<', w "T", pu '>', parens [], pj '-', pu '>', w "T", w "where", w "T", pu ':', w "Debug", pu ',', braces []]) "Function(
    Function {
        attributes: [],
        vis_marker: None,
        qualifiers: FnQualifiers {
            tk_default: None,
            tk_const: None,
            tk_async: None,
            tk_unsafe: None,
            tk_extern: None,
            extern_abi: None,
        },
        tk_fn_keyword: Ident(
            fn,
        ),
        name: Ident(
            where_clause,
        ),
        generic_params: Some(
            [
                GenericParam {
                    name: \"T\",
                    bound: None,
                },
            ],
        ),
        tk_params_parens: (),
        params: [],
        where_clause: Some(
            [
                [
                    T,
                    \":\",
                    Debug,
                ],
            ],
        ),
        tk_return_arrow: Some(
            [
                Punct {
                    char: '-',
                    spacing: Joint,
                },
                Punct {
                    char: '>',
                    spacing: Alone,
                },
            ],
        ),
        return_ty: Some(
            [
                T,
            ],
        ),
        tk_semicolon: None,
        body: Some(
            Group {
                delimiter: Brace,
                stream: TokenStream [],
            },
        ),
    },
)"
#guard shows Item.debug (item [w "fn", w "where_clause", pu '<', w "T", pu '>', parens [], w "where", w "T", pu ':', w "Debug", pu ',', braces []]) "Function(
    Function {
        attributes: [],
        vis_marker: None,
        qualifiers: FnQualifiers {
            tk_default: None,
            tk_const: None,
            tk_async: None,
            tk_unsafe: None,
            tk_extern: None,
            extern_abi: None,
        },
        tk_fn_keyword: Ident(
            fn,
        ),
        name: Ident(
            where_clause,
        ),
        generic_params: Some(
            [
                GenericParam {
                    name: \"T\",
                    bound: None,
                },
            ],
        ),
        tk_params_parens: (),
        params: [],
        where_clause: Some(
            [
                [
                    T,
                    \":\",
                    Debug,
                ],
            ],
        ),
        tk_return_arrow: None,
        return_ty: None,
        tk_semicolon: None,
        body: Some(
            Group {
                delimiter: Brace,
                stream: TokenStream [],
            },
        ),
    },
)"

/-! `parse_attr_fn` -/
#guard shows Item.debug (item [pu '#', brackets [w "my_attr"], w "fn", w "my_attr_fn", parens [w "a", pu ':', w "i32"], braces []]) "Function(
    Function {
        attributes: [
            Attribute {
                tk_hash: Punct {
                    char: '#',
                    spacing: Alone,
                },
                tk_brackets: [],
                path: [
                    my_attr,
                ],
                value: Empty,
            },
        ],
        vis_marker: None,
        qualifiers: FnQualifiers {
            tk_default: None,
            tk_const: None,
            tk_async: None,
            tk_unsafe: None,
            tk_extern: None,
            extern_abi: None,
        },
        tk_fn_keyword: Ident(
            fn,
        ),
        name: Ident(
            my_attr_fn,
        ),
        generic_params: None,
        tk_params_parens: (),
        params: [
            Typed(
                FnTypedParam {
                    attributes: [],
                    tk_mut: None,
                    name: Ident(
                        a,
                    ),
                    tk_colon: Punct {
                        char: ':',
                        spacing: Alone,
                    },
                    ty: [
                        i32,
                    ],
                },
            ),
        ],
        where_clause: None,
        tk_return_arrow: None,
        return_ty: None,
        tk_semicolon: None,
        body: Some(
            Group {
                delimiter: Brace,
                stream: TokenStream [],
            },
        ),
    },
)"

/-! `parse_visi_fn` -/
#guard shows Item.debug (item [w "pub", w "fn", w "visibility", parens [w "b", pu ':', w "f32"], braces []]) "Function(
    Function {
        attributes: [],
        vis_marker: Some(
            pub,
        ),
        qualifiers: FnQualifiers {
            tk_default: None,
            tk_const: None,
            tk_async: None,
            tk_unsafe: None,
            tk_extern: None,
            extern_abi: None,
        },
        tk_fn_keyword: Ident(
            fn,
        ),
        name: Ident(
            visibility,
        ),
        generic_params: None,
        tk_params_parens: (),
        params: [
            Typed(
                FnTypedParam {
                    attributes: [],
                    tk_mut: None,
                    name: Ident(
                        b,
                    ),
                    tk_colon: Punct {
                        char: ':',
                        spacing: Alone,
                    },
                    ty: [
                        f32,
                    ],
                },
            ),
        ],
        where_clause: None,
        tk_return_arrow: None,
        return_ty: None,
        tk_semicolon: None,
        body: Some(
            Group {
                delimiter: Brace,
                stream: TokenStream [],
            },
        ),
    },
)"

/-! `parse_default_fn` -/
#guard shows Item.debug (item [w "pub", w "default", w "fn", w "default_fn", parens [w "b", pu ':', w "f32"], braces []]) "Function(
    Function {
        attributes: [],
        vis_marker: Some(
            pub,
        ),
        qualifiers: FnQualifiers {
            tk_default: Some(
                Ident(
                    default,
                ),
            ),
            tk_const: None,
            tk_async: None,
            tk_unsafe: None,
            tk_extern: None,
            extern_abi: None,
        },
        tk_fn_keyword: Ident(
            fn,
        ),
        name: Ident(
            default_fn,
        ),
        generic_params: None,
        tk_params_parens: (),
        params: [
            Typed(
                FnTypedParam {
                    attributes: [],
                    tk_mut: None,
                    name: Ident(
                        b,
                    ),
                    tk_colon: Punct {
                        char: ':',
                        spacing: Alone,
                    },
                    ty: [
                        f32,
                    ],
                },
            ),
        ],
        where_clause: None,
        tk_return_arrow: None,
        return_ty: None,
        tk_semicolon: None,
        body: Some(
            Group {
                delimiter: Brace,
                stream: TokenStream [],
            },
        ),
    },
)"

/-! `parse_const_fn` -/
#guard shows Item.debug (item [w "pub", w "const", w "fn", w "const_fn", parens [w "b", pu ':', w "f32"], braces []]) "Function(
    Function {
        attributes: [],
        vis_marker: Some(
            pub,
        ),
        qualifiers: FnQualifiers {
            tk_default: None,
            tk_const: Some(
                Ident(
                    const,
                ),
            ),
            tk_async: None,
            tk_unsafe: None,
            tk_extern: None,
            extern_abi: None,
        },
        tk_fn_keyword: Ident(
            fn,
        ),
        name: Ident(
            const_fn,
        ),
        generic_params: None,
        tk_params_parens: (),
        params: [
            Typed(
                FnTypedParam {
                    attributes: [],
                    tk_mut: None,
                    name: Ident(
                        b,
                    ),
                    tk_colon: Punct {
                        char: ':',
                        spacing: Alone,
                    },
                    ty: [
                        f32,
                    ],
                },
            ),
        ],
        where_clause: None,
        tk_return_arrow: None,
        return_ty: None,
        tk_semicolon: None,
        body: Some(
            Group {
                delimiter: Brace,
                stream: TokenStream [],
            },
        ),
    },
)"

/-! `parse_async_fn` -/
#guard shows Item.debug (item [w "pub", w "async", w "fn", w "async_fn", parens [w "b", pu ':', w "f32"], braces []]) "Function(
    Function {
        attributes: [],
        vis_marker: Some(
            pub,
        ),
        qualifiers: FnQualifiers {
            tk_default: None,
            tk_const: None,
            tk_async: Some(
                Ident(
                    async,
                ),
            ),
            tk_unsafe: None,
            tk_extern: None,
            extern_abi: None,
        },
        tk_fn_keyword: Ident(
            fn,
        ),
        name: Ident(
            async_fn,
        ),
        generic_params: None,
        tk_params_parens: (),
        params: [
            Typed(
                FnTypedParam {
                    attributes: [],
                    tk_mut: None,
                    name: Ident(
                        b,
                    ),
                    tk_colon: Punct {
                        char: ':',
                        spacing: Alone,
                    },
                    ty: [
                        f32,
                    ],
                },
            ),
        ],
        where_clause: None,
        tk_return_arrow: None,
        return_ty: None,
        tk_semicolon: None,
        body: Some(
            Group {
                delimiter: Brace,
                stream: TokenStream [],
            },
        ),
    },
)"

/-! `parse_unsafe_fn` -/
#guard shows Item.debug (item [w "pub", w "unsafe", w "fn", w "unsafe_fn", parens [w "b", pu ':', w "f32"], braces []]) "Function(
    Function {
        attributes: [],
        vis_marker: Some(
            pub,
        ),
        qualifiers: FnQualifiers {
            tk_default: None,
            tk_const: None,
            tk_async: None,
            tk_unsafe: Some(
                Ident(
                    unsafe,
                ),
            ),
            tk_extern: None,
            extern_abi: None,
        },
        tk_fn_keyword: Ident(
            fn,
        ),
        name: Ident(
            unsafe_fn,
        ),
        generic_params: None,
        tk_params_parens: (),
        params: [
            Typed(
                FnTypedParam {
                    attributes: [],
                    tk_mut: None,
                    name: Ident(
                        b,
                    ),
                    tk_colon: Punct {
                        char: ':',
                        spacing: Alone,
                    },
                    ty: [
                        f32,
                    ],
                },
            ),
        ],
        where_clause: None,
        tk_return_arrow: None,
        return_ty: None,
        tk_semicolon: None,
        body: Some(
            Group {
                delimiter: Brace,
                stream: TokenStream [],
            },
        ),
    },
)"

/-! `parse_extern_abi_fn` -/
#guard shows Item.debug (item [w "pub", w "extern", lit "\"C\"", w "fn", w "extern_fn", parens [w "b", pu ':', w "f32"], braces []]) "Function(
    Function {
        attributes: [],
        vis_marker: Some(
            pub,
        ),
        qualifiers: FnQualifiers {
            tk_default: None,
            tk_const: None,
            tk_async: None,
            tk_unsafe: None,
            tk_extern: Some(
                Ident(
                    extern,
                ),
            ),
            extern_abi: Some(
                Literal {
                    lit: \"C\",
                },
            ),
        },
        tk_fn_keyword: Ident(
            fn,
        ),
        name: Ident(
            extern_fn,
        ),
        generic_params: None,
        tk_params_parens: (),
        params: [
            Typed(
                FnTypedParam {
                    attributes: [],
                    tk_mut: None,
                    name: Ident(
                        b,
                    ),
                    tk_colon: Punct {
                        char: ':',
                        spacing: Alone,
                    },
                    ty: [
                        f32,
                    ],
                },
            ),
        ],
        where_clause: None,
        tk_return_arrow: None,
        return_ty: None,
        tk_semicolon: None,
        body: Some(
            Group {
                delimiter: Brace,
                stream: TokenStream [],
            },
        ),
    },
)"

/-! `parse_extern_fn` -/
#guard shows Item.debug (item [w "pub", w "extern", w "fn", w "extern_fn", parens [w "b", pu ':', w "f32"], braces []]) "Function(
    Function {
        attributes: [],
        vis_marker: Some(
            pub,
        ),
        qualifiers: FnQualifiers {
            tk_default: None,
            tk_const: None,
            tk_async: None,
            tk_unsafe: None,
            tk_extern: Some(
                Ident(
                    extern,
                ),
            ),
            extern_abi: None,
        },
        tk_fn_keyword: Ident(
            fn,
        ),
        name: Ident(
            extern_fn,
        ),
        generic_params: None,
        tk_params_parens: (),
        params: [
            Typed(
                FnTypedParam {
                    attributes: [],
                    tk_mut: None,
                    name: Ident(
                        b,
                    ),
                    tk_colon: Punct {
                        char: ':',
                        spacing: Alone,
                    },
                    ty: [
                        f32,
                    ],
                },
            ),
        ],
        where_clause: None,
        tk_return_arrow: None,
        return_ty: None,
        tk_semicolon: None,
        body: Some(
            Group {
                delimiter: Brace,
                stream: TokenStream [],
            },
        ),
    },
)"

/-! `parse_all_kw_fn` -/
#guard shows Item.debug (item [w "pub", w "default", w "const", w "async", w "unsafe", w "extern", lit "\"C\"", w "fn", w "all_kw", parens [w "b", pu ':', w "f32"], braces []]) "Function(
    Function {
        attributes: [],
        vis_marker: Some(
            pub,
        ),
        qualifiers: FnQualifiers {
            tk_default: Some(
                Ident(
                    default,
                ),
            ),
            tk_const: Some(
                Ident(
                    const,
                ),
            ),
            tk_async: Some(
                Ident(
                    async,
                ),
            ),
            tk_unsafe: Some(
                Ident(
                    unsafe,
                ),
            ),
            tk_extern: Some(
                Ident(
                    extern,
                ),
            ),
            extern_abi: Some(
                Literal {
                    lit: \"C\",
                },
            ),
        },
        tk_fn_keyword: Ident(
            fn,
        ),
        name: Ident(
            all_kw,
        ),
        generic_params: None,
        tk_params_parens: (),
        params: [
            Typed(
                FnTypedParam {
                    attributes: [],
                    tk_mut: None,
                    name: Ident(
                        b,
                    ),
                    tk_colon: Punct {
                        char: ':',
                        spacing: Alone,
                    },
                    ty: [
                        f32,
                    ],
                },
            ),
        ],
        where_clause: None,
        tk_return_arrow: None,
        return_ty: None,
        tk_semicolon: None,
        body: Some(
            Group {
                delimiter: Brace,
                stream: TokenStream [],
            },
        ),
    },
)"

/-! `parse_param_attr_fn` -/
#guard shows Item.debug (item [w "pub", w "async", w "fn", w "visibility", parens [pu '#', brackets [w "my_attr"], w "b", pu ':', w "f32"], braces []]) "Function(
    Function {
        attributes: [],
        vis_marker: Some(
            pub,
        ),
        qualifiers: FnQualifiers {
            tk_default: None,
            tk_const: None,
            tk_async: Some(
                Ident(
                    async,
                ),
            ),
            tk_unsafe: None,
            tk_extern: None,
            extern_abi: None,
        },
        tk_fn_keyword: Ident(
            fn,
        ),
        name: Ident(
            visibility,
        ),
        generic_params: None,
        tk_params_parens: (),
        params: [
            Typed(
                FnTypedParam {
                    attributes: [
                        Attribute {
                            tk_hash: Punct {
                                char: '#',
                                spacing: Alone,
                            },
                            tk_brackets: [],
                            path: [
                                my_attr,
                            ],
                            value: Empty,
                        },
                    ],
                    tk_mut: None,
                    name: Ident(
                        b,
                    ),
                    tk_colon: Punct {
                        char: ':',
                        spacing: Alone,
                    },
                    ty: [
                        f32,
                    ],
                },
            ),
        ],
        where_clause: None,
        tk_return_arrow: None,
        return_ty: None,
        tk_semicolon: None,
        body: Some(
            Group {
                delimiter: Brace,
                stream: TokenStream [],
            },
        ),
    },
)"

/-! `parse_fn_body` -/
#guard shows Item.debug (item [w "fn", w "hello_world", parens [w "a", pu ':', w "i32", pu ',', w "b", pu ':', w "f32"], pj '-', pu '>', w "String", braces [w "println", pu '!', parens [lit "\"hello world\""]]]) "Function(
    Function {
        attributes: [],
        vis_marker: None,
        qualifiers: FnQualifiers {
            tk_default: None,
            tk_const: None,
            tk_async: None,
            tk_unsafe: None,
            tk_extern: None,
            extern_abi: None,
        },
        tk_fn_keyword: Ident(
            fn,
        ),
        name: Ident(
            hello_world,
        ),
        generic_params: None,
        tk_params_parens: (),
        params: [
            Typed(
                FnTypedParam {
                    attributes: [],
                    tk_mut: None,
                    name: Ident(
                        a,
                    ),
                    tk_colon: Punct {
                        char: ':',
                        spacing: Alone,
                    },
                    ty: [
                        i32,
                    ],
                },
            ),
            Typed(
                FnTypedParam {
                    attributes: [],
                    tk_mut: None,
                    name: Ident(
                        b,
                    ),
                    tk_colon: Punct {
                        char: ':',
                        spacing: Alone,
                    },
                    ty: [
                        f32,
                    ],
                },
            ),
        ],
        where_clause: None,
        tk_return_arrow: Some(
            [
                Punct {
                    char: '-',
                    spacing: Joint,
                },
                Punct {
                    char: '>',
                    spacing: Alone,
                },
            ],
        ),
        return_ty: Some(
            [
                String,
            ],
        ),
        tk_semicolon: None,
        body: Some(
            Group {
                delimiter: Brace,
                stream: TokenStream [
                    Ident {
                        sym: println,
                    },
                    Punct {
                        char: '!',
                        spacing: Alone,
                    },
                    Group {
                        delimiter: Parenthesis,
                        stream: TokenStream [
                            Literal {
                                lit: \"hello world\",
                            },
                        ],
                    },
                ],
            },
        ),
    },
)"

/-! `parse_fn_prototype` -/
#guard shows Item.debug (item [w "fn", w "prototype", parens [w "a", pu ':', w "i32", pu ',', w "b", pu ':', w "f32"], pj '-', pu '>', w "String", pu ';']) "Function(
    Function {
        attributes: [],
        vis_marker: None,
        qualifiers: FnQualifiers {
            tk_default: None,
            tk_const: None,
            tk_async: None,
            tk_unsafe: None,
            tk_extern: None,
            extern_abi: None,
        },
        tk_fn_keyword: Ident(
            fn,
        ),
        name: Ident(
            prototype,
        ),
        generic_params: None,
        tk_params_parens: (),
        params: [
            Typed(
                FnTypedParam {
                    attributes: [],
                    tk_mut: None,
                    name: Ident(
                        a,
                    ),
                    tk_colon: Punct {
                        char: ':',
                        spacing: Alone,
                    },
                    ty: [
                        i32,
                    ],
                },
            ),
            Typed(
                FnTypedParam {
                    attributes: [],
                    tk_mut: None,
                    name: Ident(
                        b,
                    ),
                    tk_colon: Punct {
                        char: ':',
                        spacing: Alone,
                    },
                    ty: [
                        f32,
                    ],
                },
            ),
        ],
        where_clause: None,
        tk_return_arrow: Some(
            [
                Punct {
                    char: '-',
                    spacing: Joint,
                },
                Punct {
                    char: '>',
                    spacing: Alone,
                },
            ],
        ),
        return_ty: Some(
            [
                String,
            ],
        ),
        tk_semicolon: Some(
            Punct {
                char: ';',
                spacing: Alone,
            },
        ),
        body: None,
    },
)"

/-! `parse_fn_mut_param` -/
#guard shows Item.debug (item [w "fn", w "prototype", parens [w "a", pu ':', w "i32", pu ',', w "mut", w "b", pu ':', w "f32"], pj '-', pu '>', w "String", pu ';']) "Function(
    Function {
        attributes: [],
        vis_marker: None,
        qualifiers: FnQualifiers {
            tk_default: None,
            tk_const: None,
            tk_async: None,
            tk_unsafe: None,
            tk_extern: None,
            extern_abi: None,
        },
        tk_fn_keyword: Ident(
            fn,
        ),
        name: Ident(
            prototype,
        ),
        generic_params: None,
        tk_params_parens: (),
        params: [
            Typed(
                FnTypedParam {
                    attributes: [],
                    tk_mut: None,
                    name: Ident(
                        a,
                    ),
                    tk_colon: Punct {
                        char: ':',
                        spacing: Alone,
                    },
                    ty: [
                        i32,
                    ],
                },
            ),
            Typed(
                FnTypedParam {
                    attributes: [],
                    tk_mut: Some(
                        Ident(
                            mut,
                        ),
                    ),
                    name: Ident(
                        b,
                    ),
                    tk_colon: Punct {
                        char: ':',
                        spacing: Alone,
                    },
                    ty: [
                        f32,
                    ],
                },
            ),
        ],
        where_clause: None,
        tk_return_arrow: Some(
            [
                Punct {
                    char: '-',
                    spacing: Joint,
                },
                Punct {
                    char: '>',
                    spacing: Alone,
                },
            ],
        ),
        return_ty: Some(
            [
                String,
            ],
        ),
        tk_semicolon: Some(
            Punct {
                char: ';',
                spacing: Alone,
            },
        ),
        body: None,
    },
)"

/-! `parse_fn_lifetimes` -/
#guard shows Item.debug (item [w "fn", w "prototype", pu '<', pj '\'', w "a", pu '>', parens [w "a", pu ':', pu '&', pj '\'', w "a", w "mut", w "i32"], pj '-', pu '>', pu '&', pj '\'', w "a", w "String", pu ';']) "Function(
    Function {
        attributes: [],
        vis_marker: None,
        qualifiers: FnQualifiers {
            tk_default: None,
            tk_const: None,
            tk_async: None,
            tk_unsafe: None,
            tk_extern: None,
            extern_abi: None,
        },
        tk_fn_keyword: Ident(
            fn,
        ),
        name: Ident(
            prototype,
        ),
        generic_params: Some(
            [
                GenericParam {
                    tk_prefix: \"'\",
                    name: \"a\",
                    bound: None,
                },
            ],
        ),
        tk_params_parens: (),
        params: [
            Typed(
                FnTypedParam {
                    attributes: [],
                    tk_mut: None,
                    name: Ident(
                        a,
                    ),
                    tk_colon: Punct {
                        char: ':',
                        spacing: Alone,
                    },
                    ty: [
                        \"&\",
                        \"'\",
                        a,
                        mut,
                        i32,
                    ],
                },
            ),
        ],
        where_clause: None,
        tk_return_arrow: Some(
            [
                Punct {
                    char: '-',
                    spacing: Joint,
                },
                Punct {
                    char: '>',
                    spacing: Alone,
                },
            ],
        ),
        return_ty: Some(
            [
                \"&\",
                \"'\",
                a,
                String,
            ],
        ),
        tk_semicolon: Some(
            Punct {
                char: ';',
                spacing: Alone,
            },
        ),
        body: None,
    },
)"

/-! `parse_fn_receiver_lifetime` -/
#guard shows Item.debug (item [w "fn", w "prototype", parens [pu '&', pj '\'', w "lifetime", w "self"], pu ';']) "Function(
    Function {
        attributes: [],
        vis_marker: None,
        qualifiers: FnQualifiers {
            tk_default: None,
            tk_const: None,
            tk_async: None,
            tk_unsafe: None,
            tk_extern: None,
            extern_abi: None,
        },
        tk_fn_keyword: Ident(
            fn,
        ),
        name: Ident(
            prototype,
        ),
        generic_params: None,
        tk_params_parens: (),
        params: [
            Receiver(
                FnReceiverParam {
                    attributes: [],
                    tk_ref: Some(
                        Punct {
                            char: '&',
                            spacing: Alone,
                        },
                    ),
                    lifetime: Some(
                        Lifetime {
                            tk_apostrophe: Punct {
                                char: '\\'',
                                spacing: Joint,
                            },
                            name: Ident(
                                lifetime,
                            ),
                        },
                    ),
                    tk_mut: None,
                    tk_self: Ident(
                        self,
                    ),
                },
            ),
        ],
        where_clause: None,
        tk_return_arrow: None,
        return_ty: None,
        tk_semicolon: Some(
            Punct {
                char: ';',
                spacing: Alone,
            },
        ),
        body: None,
    },
)"

/-! `parse_fn_mut_receiver_lifetime` -/
#guard shows Item.debug (item [w "fn", w "prototype", pu '<', pj '\'', w "a", pu '>', parens [pu '&', pj '\'', w "a", w "mut", w "self"], pu ';']) "Function(
    Function {
        attributes: [],
        vis_marker: None,
        qualifiers: FnQualifiers {
            tk_default: None,
            tk_const: None,
            tk_async: None,
            tk_unsafe: None,
            tk_extern: None,
            extern_abi: None,
        },
        tk_fn_keyword: Ident(
            fn,
        ),
        name: Ident(
            prototype,
        ),
        generic_params: Some(
            [
                GenericParam {
                    tk_prefix: \"'\",
                    name: \"a\",
                    bound: None,
                },
            ],
        ),
        tk_params_parens: (),
        params: [
            Receiver(
                FnReceiverParam {
                    attributes: [],
                    tk_ref: Some(
                        Punct {
                            char: '&',
                            spacing: Alone,
                        },
                    ),
                    lifetime: Some(
                        Lifetime {
                            tk_apostrophe: Punct {
                                char: '\\'',
                                spacing: Joint,
                            },
                            name: Ident(
                                a,
                            ),
                        },
                    ),
                    tk_mut: Some(
                        Ident(
                            mut,
                        ),
                    ),
                    tk_self: Ident(
                        self,
                    ),
                },
            ),
        ],
        where_clause: None,
        tk_return_arrow: None,
        return_ty: None,
        tk_semicolon: Some(
            Punct {
                char: ';',
                spacing: Alone,
            },
        ),
        body: None,
    },
)"

/-! `parse_fn_pattern_arg` -/
#guard panics [w "fn", w "foobar", parens [parens [w "a", pu ',', w "b"], pu ':', parens [w "i32", pu ',', w "i32"]], braces []]

/-! `parse_fn_c_variadics` -/
#guard panics [w "fn", w "foobar", parens [w "a", pu ':', w "i32", pu ',', pj '.', pj '.', pu '.'], braces []]

/-! `parse_fn_no_pattern` -/
#guard panics [w "fn", w "foobar", parens [w "i32"], braces []]

/-! `parse_fn_self_param` -/
#guard shows (debugResult Item.debug) (result [w "fn", w "foobar", parens [w "self"], braces []]) "Ok(
    Function(
        Function {
            attributes: [],
            vis_marker: None,
            qualifiers: FnQualifiers {
                tk_default: None,
                tk_const: None,
                tk_async: None,
                tk_unsafe: None,
                tk_extern: None,
                extern_abi: None,
            },
            tk_fn_keyword: Ident(
                fn,
            ),
            name: Ident(
                foobar,
            ),
            generic_params: None,
            tk_params_parens: (),
            params: [
                Receiver(
                    FnReceiverParam {
                        attributes: [],
                        tk_ref: None,
                        lifetime: None,
                        tk_mut: None,
                        tk_self: Ident(
                            self,
                        ),
                    },
                ),
            ],
            where_clause: None,
            tk_return_arrow: None,
            return_ty: None,
            tk_semicolon: None,
            body: Some(
                Group {
                    delimiter: Brace,
                    stream: TokenStream [],
                },
            ),
        },
    ),
)"
#guard shows (debugResult Item.debug) (result [w "fn", w "foobar", parens [pu '&', w "self"], braces []]) "Ok(
    Function(
        Function {
            attributes: [],
            vis_marker: None,
            qualifiers: FnQualifiers {
                tk_default: None,
                tk_const: None,
                tk_async: None,
                tk_unsafe: None,
                tk_extern: None,
                extern_abi: None,
            },
            tk_fn_keyword: Ident(
                fn,
            ),
            name: Ident(
                foobar,
            ),
            generic_params: None,
            tk_params_parens: (),
            params: [
                Receiver(
                    FnReceiverParam {
                        attributes: [],
                        tk_ref: Some(
                            Punct {
                                char: '&',
                                spacing: Alone,
                            },
                        ),
                        lifetime: None,
                        tk_mut: None,
                        tk_self: Ident(
                            self,
                        ),
                    },
                ),
            ],
            where_clause: None,
            tk_return_arrow: None,
            return_ty: None,
            tk_semicolon: None,
            body: Some(
                Group {
                    delimiter: Brace,
                    stream: TokenStream [],
                },
            ),
        },
    ),
)"
#guard shows (debugResult Item.debug) (result [w "fn", w "foobar", parens [w "mut", w "self"], braces []]) "Ok(
    Function(
        Function {
            attributes: [],
            vis_marker: None,
            qualifiers: FnQualifiers {
                tk_default: None,
                tk_const: None,
                tk_async: None,
                tk_unsafe: None,
                tk_extern: None,
                extern_abi: None,
            },
            tk_fn_keyword: Ident(
                fn,
            ),
            name: Ident(
                foobar,
            ),
            generic_params: None,
            tk_params_parens: (),
            params: [
                Receiver(
                    FnReceiverParam {
                        attributes: [],
                        tk_ref: None,
                        lifetime: None,
                        tk_mut: Some(
                            Ident(
                                mut,
                            ),
                        ),
                        tk_self: Ident(
                            self,
                        ),
                    },
                ),
            ],
            where_clause: None,
            tk_return_arrow: None,
            return_ty: None,
            tk_semicolon: None,
            body: Some(
                Group {
                    delimiter: Brace,
                    stream: TokenStream [],
                },
            ),
        },
    ),
)"
#guard shows (debugResult Item.debug) (result [w "fn", w "foobar", parens [pu '&', w "mut", w "self"], braces []]) "Ok(
    Function(
        Function {
            attributes: [],
            vis_marker: None,
            qualifiers: FnQualifiers {
                tk_default: None,
                tk_const: None,
                tk_async: None,
                tk_unsafe: None,
                tk_extern: None,
                extern_abi: None,
            },
            tk_fn_keyword: Ident(
                fn,
            ),
            name: Ident(
                foobar,
            ),
            generic_params: None,
            tk_params_parens: (),
            params: [
                Receiver(
                    FnReceiverParam {
                        attributes: [],
                        tk_ref: Some(
                            Punct {
                                char: '&',
                                spacing: Alone,
                            },
                        ),
                        lifetime: None,
                        tk_mut: Some(
                            Ident(
                                mut,
                            ),
                        ),
                        tk_self: Ident(
                            self,
                        ),
                    },
                ),
            ],
            where_clause: None,
            tk_return_arrow: None,
            return_ty: None,
            tk_semicolon: None,
            body: Some(
                Group {
                    delimiter: Brace,
                    stream: TokenStream [],
                },
            ),
        },
    ),
)"

/-! `parse_struct_with_macro` -/
#guard panics [w "struct", w "Hello", braces [w "a", pu ':', w "A", pu ',', w "b", pu ':', w "B", pu ',', w "transmogrify", pu '!', braces [w "c", pu ':', w "C", pu ',']]]

/-! `add_lifetime` -/
#guard prints ((struct [w "struct", w "Hello", braces [w "a", pu ':', w "A", pu ',', w "b", pu ':', w "B", pu ',']]).map fun s => s.with_param (GenericParam.lifetime "b")) "struct Hello < 'b > { a : A , b : B , }"
#guard prints ((struct [w "struct", w "Hello", pu '<', w "A", pu ',', w "B", pu '>', braces [w "a", pu ':', w "A", pu ',', w "b", pu ':', w "B", pu ',']]).map fun s => s.with_param (GenericParam.lifetime "b")) "struct Hello < 'b , A , B > { a : A , b : B , }"
#guard prints ((struct [w "struct", w "Hello", pu '<', pj '\'', w "a", pu ',', w "A", pu ',', w "B", pu '>', braces [w "a", pu ':', pu '&', pj '\'', w "a", w "A", pu ',', w "b", pu ':', w "B", pu ',']]).map fun s => s.with_param (GenericParam.lifetime "b")) "struct Hello < 'b , 'a , A , B > { a : & 'a A , b : B , }"

/-! `add_bounded_lifetime` -/
#guard prints ((struct [w "struct", w "Hello", braces [w "a", pu ':', w "A", pu ',', w "b", pu ':', w "B", pu ',']]).map fun s => s.with_param (GenericParam.bounded_lifetime "b" [w "c", pu '+', w "d"])) "struct Hello < ' b : c + d > { a : A , b : B , }"

/-! `add_ty_param` -/
#guard prints ((struct [w "struct", w "Hello", braces [w "a", pu ':', w "A", pu ',', w "b", pu ':', w "B", pu ',']]).map fun s => s.with_param (GenericParam.ty "T")) "struct Hello < T > { a : A , b : B , }"
#guard prints ((struct [w "struct", w "Hello", pu '<', w "A", pu ',', w "B", pu '>', braces [w "a", pu ':', w "A", pu ',', w "b", pu ':', w "B", pu ',']]).map fun s => s.with_param (GenericParam.ty "T")) "struct Hello < A , B , T > { a : A , b : B , }"

/-! `add_bounded_ty_param` -/
#guard prints ((struct [w "struct", w "Hello", braces [w "a", pu ':', w "A", pu ',', w "b", pu ':', w "B", pu ',']]).map fun s => s.with_param (GenericParam.bounded_ty "T" [w "Clone"])) "struct Hello < T : Clone > { a : A , b : B , }"

/-! `add_const_param` -/
#guard prints ((struct [w "struct", w "Hello", braces [w "a", pu ':', w "A", pu ',', w "b", pu ':', w "B", pu ',']]).map fun s => s.with_param (GenericParam.const_param "N" [w "u32"])) "struct Hello < const N : u32 > { a : A , b : B , }"
#guard prints ((struct [w "struct", w "Hello", pu '<', w "A", pu ',', w "B", pu '>', braces [w "a", pu ':', w "A", pu ',', w "b", pu ':', w "B", pu ',']]).map fun s => s.with_param (GenericParam.const_param "N" [w "u32"])) "struct Hello < A , B , const N : u32 > { a : A , b : B , }"

/-! `add_where_item` -/
#guard prints ((struct [w "struct", w "Hello", braces [w "a", pu ':', w "A", pu ',', w "b", pu ':', w "B", pu ',']]).bind fun s => (predicate [w "Self", pu ':', w "Sized"]).map s.with_where_predicate) "struct Hello where Self : Sized { a : A , b : B , }"
#guard prints ((struct [w "struct", w "Hello", pu '<', w "A", pu ',', w "B", pu '>', w "where", w "A", pu ':', w "Clone", pu ',', w "B", pu ':', w "Clone", pu ',', braces [w "a", pu ':', w "A", pu ',', w "b", pu ':', w "B", pu ',']]).bind fun s => (predicate [w "Self", pu ':', w "Sized"]).map s.with_where_predicate) "struct Hello < A , B > where A : Clone , B : Clone , Self : Sized { a : A , b : B , }"

/-! `parse_impl_inherent` -/
#guard shows Item.debug (checked [pu '#', brackets [w "outer"], w "impl", w "MyStruct", braces [pu '#', pu '!', brackets [w "inner"], w "fn", w "new", parens [w "i", pu ':', w "i32", pu ',', w "b", pu ':', w "bool"], pj '-', pu '>', w "Self", braces [w "Self", braces []], pu '#', brackets [w "attr"], w "pub", parens [w "crate"], w "fn", w "set_value", parens [pu '&', w "mut", w "self", pu ',', w "s", pu ':', w "String"], braces [], w "pub", w "const", w "CONSTANT", pu ':', w "i8", pu '=', lit "24", pu '+', lit "7", pu ';', pu '#', brackets [w "clippy", pj ':', pu ':', w "allow", parens [w "venial"]], w "fn_macro", pu '!', parens [w "MyTrait"], pu ';', w "block_macro", pu '!', braces [w "fn", w "inner_fn", parens [], pj '-', pu '>', w "bool", pu ';']]]) "Impl(
    Impl {
        attributes: [
            Attribute {
                tk_hash: Punct {
                    char: '#',
                    spacing: Alone,
                },
                tk_brackets: [],
                path: [
                    outer,
                ],
                value: Empty,
            },
        ],
        tk_unsafe: None,
        tk_impl: Ident(
            impl,
        ),
        impl_generic_params: None,
        trait_ty: None,
        tk_for: None,
        self_ty: [
            MyStruct,
        ],
        where_clause: None,
        tk_braces: {},
        inner_attributes: [
            Attribute {
                tk_hash: Punct {
                    char: '#',
                    spacing: Alone,
                },
                tk_bang: Punct {
                    char: '!',
                    spacing: Alone,
                },
                tk_brackets: [],
                path: [
                    inner,
                ],
                value: Empty,
            },
        ],
        body_items: [
            AssocFunction(
                Function {
                    attributes: [],
                    vis_marker: None,
                    qualifiers: FnQualifiers {
                        tk_default: None,
                        tk_const: None,
                        tk_async: None,
                        tk_unsafe: None,
                        tk_extern: None,
                        extern_abi: None,
                    },
                    tk_fn_keyword: Ident(
                        fn,
                    ),
                    name: Ident(
                        new,
                    ),
                    generic_params: None,
                    tk_params_parens: (),
                    params: [
                        Typed(
                            FnTypedParam {
                                attributes: [],
                                tk_mut: None,
                                name: Ident(
                                    i,
                                ),
                                tk_colon: Punct {
                                    char: ':',
                                    spacing: Alone,
                                },
                                ty: [
                                    i32,
                                ],
                            },
                        ),
                        Typed(
                            FnTypedParam {
                                attributes: [],
                                tk_mut: None,
                                name: Ident(
                                    b,
                                ),
                                tk_colon: Punct {
                                    char: ':',
                                    spacing: Alone,
                                },
                                ty: [
                                    bool,
                                ],
                            },
                        ),
                    ],
                    where_clause: None,
                    tk_return_arrow: Some(
                        [
                            Punct {
                                char: '-',
                                spacing: Joint,
                            },
                            Punct {
                                char: '>',
                                spacing: Alone,
                            },
                        ],
                    ),
                    return_ty: Some(
                        [
                            Self,
                        ],
                    ),
                    tk_semicolon: None,
                    body: Some(
                        Group {
                            delimiter: Brace,
                            stream: TokenStream [
                                Ident {
                                    sym: Self,
                                },
                                Group {
                                    delimiter: Brace,
                                    stream: TokenStream [],
                                },
                            ],
                        },
                    ),
                },
            ),
            AssocFunction(
                Function {
                    attributes: [
                        Attribute {
                            tk_hash: Punct {
                                char: '#',
                                spacing: Alone,
                            },
                            tk_brackets: [],
                            path: [
                                attr,
                            ],
                            value: Empty,
                        },
                    ],
                    vis_marker: Some(
                        pub(
                            crate,
                        ),
                    ),
                    qualifiers: FnQualifiers {
                        tk_default: None,
                        tk_const: None,
                        tk_async: None,
                        tk_unsafe: None,
                        tk_extern: None,
                        extern_abi: None,
                    },
                    tk_fn_keyword: Ident(
                        fn,
                    ),
                    name: Ident(
                        set_value,
                    ),
                    generic_params: None,
                    tk_params_parens: (),
                    params: [
                        Receiver(
                            FnReceiverParam {
                                attributes: [],
                                tk_ref: Some(
                                    Punct {
                                        char: '&',
                                        spacing: Alone,
                                    },
                                ),
                                lifetime: None,
                                tk_mut: Some(
                                    Ident(
                                        mut,
                                    ),
                                ),
                                tk_self: Ident(
                                    self,
                                ),
                            },
                        ),
                        Typed(
                            FnTypedParam {
                                attributes: [],
                                tk_mut: None,
                                name: Ident(
                                    s,
                                ),
                                tk_colon: Punct {
                                    char: ':',
                                    spacing: Alone,
                                },
                                ty: [
                                    String,
                                ],
                            },
                        ),
                    ],
                    where_clause: None,
                    tk_return_arrow: None,
                    return_ty: None,
                    tk_semicolon: None,
                    body: Some(
                        Group {
                            delimiter: Brace,
                            stream: TokenStream [],
                        },
                    ),
                },
            ),
            AssocConstant(
                Constant {
                    attributes: [],
                    vis_marker: Some(
                        pub,
                    ),
                    tk_const_or_static: Ident(
                        const,
                    ),
                    tk_mut: None,
                    name: Ident(
                        CONSTANT,
                    ),
                    tk_colon: Punct {
                        char: ':',
                        spacing: Alone,
                    },
                    ty: [
                        i8,
                    ],
                    tk_equals: Some(
                        Punct {
                            char: '=',
                            spacing: Alone,
                        },
                    ),
                    initializer: Some(
                        [
                            24,
                            \"+\",
                            7,
                        ],
                    ),
                    tk_semicolon: Punct {
                        char: ';',
                        spacing: Alone,
                    },
                },
            ),
            Macro(
                Macro {
                    attributes: [
                        Attribute {
                            tk_hash: Punct {
                                char: '#',
                                spacing: Alone,
                            },
                            tk_brackets: [],
                            path: [
                                clippy,
                                \":\",
                                \":\",
                                allow,
                            ],
                            value: Group(
                                [
                                    venial,
                                ],
                                (),
                            ),
                        },
                    ],
                    name: Ident(
                        fn_macro,
                    ),
                    tk_bang: Punct {
                        char: '!',
                        spacing: Alone,
                    },
                    tk_declared_name: None,
                    tk_braces_or_parens: (),
                    inner_tokens: [
                        Ident {
                            sym: MyTrait,
                        },
                    ],
                    tk_semicolon: Some(
                        Punct {
                            char: ';',
                            spacing: Alone,
                        },
                    ),
                },
            ),
            Macro(
                Macro {
                    attributes: [],
                    name: Ident(
                        block_macro,
                    ),
                    tk_bang: Punct {
                        char: '!',
                        spacing: Alone,
                    },
                    tk_declared_name: None,
                    tk_braces_or_parens: {},
                    inner_tokens: [
                        Ident {
                            sym: fn,
                        },
                        Ident {
                            sym: inner_fn,
                        },
                        Group {
                            delimiter: Parenthesis,
                            stream: TokenStream [],
                        },
                        Punct {
                            char: '-',
                            spacing: Joint,
                        },
                        Punct {
                            char: '>',
                            spacing: Alone,
                        },
                        Ident {
                            sym: bool,
                        },
                        Punct {
                            char: ';',
                            spacing: Alone,
                        },
                    ],
                    tk_semicolon: None,
                },
            ),
        ],
    },
)"

/-! `parse_impl_inherent_generic` -/
#guard shows Item.debug (checked [w "impl", pu '<', pj '\'', w "a", pu ',', w "T", pu ':', w "Clone", pu ',', w "const", w "N", pu ':', w "i8", pu '>', w "structs", pj ':', pu ':', w "MyStruct", pu '<', pj '\'', w "a", pu ',', w "T", pu ',', w "N", pu '>', braces []]) "Impl(
    Impl {
        attributes: [],
        tk_unsafe: None,
        tk_impl: Ident(
            impl,
        ),
        impl_generic_params: Some(
            [
                GenericParam {
                    tk_prefix: \"'\",
                    name: \"a\",
                    bound: None,
                },
                GenericParam {
                    name: \"T\",
                    bound: Some(
                        [
                            Clone,
                        ],
                    ),
                },
                GenericParam {
                    tk_prefix: \"const\",
                    name: \"N\",
                    bound: Some(
                        [
                            i8,
                        ],
                    ),
                },
            ],
        ),
        trait_ty: None,
        tk_for: None,
        self_ty: [
            structs,
            \":\",
            \":\",
            MyStruct,
            \"<\",
            \"'\",
            a,
            \",\",
            T,
            \",\",
            N,
            \">\",
        ],
        where_clause: None,
        tk_braces: {},
        inner_attributes: [],
        body_items: [],
    },
)"

/-! `parse_impl_trait` -/
#guard shows Item.debug (checked [pu '#', brackets [w "outer"], w "impl", w "MyTrait", w "for", w "MyStruct", braces [pu '#', pu '!', brackets [w "inner"], pu '#', pu '!', brackets [w "inner2"], pu '#', brackets [w "attr"], pu '#', brackets [w "attr2"], w "pub", w "type", w "MyType", pu '=', w "std", pj ':', pu ':', w "string", pj ':', pu ':', w "String", pu ';', w "fn", w "new", parens [w "i", pu ':', w "i32", pu ',', w "b", pu ':', w "bool"], pj '-', pu '>', w "Self", braces [w "Self", braces []], pu '#', brackets [w "attr"], w "const", w "fn", w "set_value", parens [pu '&', w "mut", w "self", pu ',', w "s", pu ':', w "String"], braces [], w "const", w "CONSTANT", pu ':', w "i8", pu '=', lit "24", pu '+', lit "7", pu ';', pu '#', brackets [w "clippy", pj ':', pu ':', w "allow", parens [w "venial"]], w "fn_macro", pu '!', parens [w "MyTrait"], pu ';', w "block_macro", pu '!', braces [w "fn", w "inner_fn", parens [], pj '-', pu '>', w "bool", pu ';']]]) "Impl(
    Impl {
        attributes: [
            Attribute {
                tk_hash: Punct {
                    char: '#',
                    spacing: Alone,
                },
                tk_brackets: [],
                path: [
                    outer,
                ],
                value: Empty,
            },
        ],
        tk_unsafe: None,
        tk_impl: Ident(
            impl,
        ),
        impl_generic_params: None,
        trait_ty: Some(
            [
                MyTrait,
            ],
        ),
        tk_for: Some(
            Ident(
                for,
            ),
        ),
        self_ty: [
            MyStruct,
        ],
        where_clause: None,
        tk_braces: {},
        inner_attributes: [
            Attribute {
                tk_hash: Punct {
                    char: '#',
                    spacing: Alone,
                },
                tk_bang: Punct {
                    char: '!',
                    spacing: Alone,
                },
                tk_brackets: [],
                path: [
                    inner,
                ],
                value: Empty,
            },
            Attribute {
                tk_hash: Punct {
                    char: '#',
                    spacing: Alone,
                },
                tk_bang: Punct {
                    char: '!',
                    spacing: Alone,
                },
                tk_brackets: [],
                path: [
                    inner2,
                ],
                value: Empty,
            },
        ],
        body_items: [
            AssocType(
                TypeAlias {
                    attributes: [
                        Attribute {
                            tk_hash: Punct {
                                char: '#',
                                spacing: Alone,
                            },
                            tk_brackets: [],
                            path: [
                                attr,
                            ],
                            value: Empty,
                        },
                        Attribute {
                            tk_hash: Punct {
                                char: '#',
                                spacing: Alone,
                            },
                            tk_brackets: [],
                            path: [
                                attr2,
                            ],
                            value: Empty,
                        },
                    ],
                    vis_marker: Some(
                        pub,
                    ),
                    tk_type: Ident(
                        type,
                    ),
                    name: Ident(
                        MyType,
                    ),
                    bound: None,
                    tk_equals: Some(
                        Punct {
                            char: '=',
                            spacing: Alone,
                        },
                    ),
                    initializer_ty: Some(
                        [
                            std,
                            \":\",
                            \":\",
                            string,
                            \":\",
                            \":\",
                            String,
                        ],
                    ),
                    tk_semicolon: Punct {
                        char: ';',
                        spacing: Alone,
                    },
                },
            ),
            AssocFunction(
                Function {
                    attributes: [],
                    vis_marker: None,
                    qualifiers: FnQualifiers {
                        tk_default: None,
                        tk_const: None,
                        tk_async: None,
                        tk_unsafe: None,
                        tk_extern: None,
                        extern_abi: None,
                    },
                    tk_fn_keyword: Ident(
                        fn,
                    ),
                    name: Ident(
                        new,
                    ),
                    generic_params: None,
                    tk_params_parens: (),
                    params: [
                        Typed(
                            FnTypedParam {
                                attributes: [],
                                tk_mut: None,
                                name: Ident(
                                    i,
                                ),
                                tk_colon: Punct {
                                    char: ':',
                                    spacing: Alone,
                                },
                                ty: [
                                    i32,
                                ],
                            },
                        ),
                        Typed(
                            FnTypedParam {
                                attributes: [],
                                tk_mut: None,
                                name: Ident(
                                    b,
                                ),
                                tk_colon: Punct {
                                    char: ':',
                                    spacing: Alone,
                                },
                                ty: [
                                    bool,
                                ],
                            },
                        ),
                    ],
                    where_clause: None,
                    tk_return_arrow: Some(
                        [
                            Punct {
                                char: '-',
                                spacing: Joint,
                            },
                            Punct {
                                char: '>',
                                spacing: Alone,
                            },
                        ],
                    ),
                    return_ty: Some(
                        [
                            Self,
                        ],
                    ),
                    tk_semicolon: None,
                    body: Some(
                        Group {
                            delimiter: Brace,
                            stream: TokenStream [
                                Ident {
                                    sym: Self,
                                },
                                Group {
                                    delimiter: Brace,
                                    stream: TokenStream [],
                                },
                            ],
                        },
                    ),
                },
            ),
            AssocFunction(
                Function {
                    attributes: [
                        Attribute {
                            tk_hash: Punct {
                                char: '#',
                                spacing: Alone,
                            },
                            tk_brackets: [],
                            path: [
                                attr,
                            ],
                            value: Empty,
                        },
                    ],
                    vis_marker: None,
                    qualifiers: FnQualifiers {
                        tk_default: None,
                        tk_const: Some(
                            Ident(
                                const,
                            ),
                        ),
                        tk_async: None,
                        tk_unsafe: None,
                        tk_extern: None,
                        extern_abi: None,
                    },
                    tk_fn_keyword: Ident(
                        fn,
                    ),
                    name: Ident(
                        set_value,
                    ),
                    generic_params: None,
                    tk_params_parens: (),
                    params: [
                        Receiver(
                            FnReceiverParam {
                                attributes: [],
                                tk_ref: Some(
                                    Punct {
                                        char: '&',
                                        spacing: Alone,
                                    },
                                ),
                                lifetime: None,
                                tk_mut: Some(
                                    Ident(
                                        mut,
                                    ),
                                ),
                                tk_self: Ident(
                                    self,
                                ),
                            },
                        ),
                        Typed(
                            FnTypedParam {
                                attributes: [],
                                tk_mut: None,
                                name: Ident(
                                    s,
                                ),
                                tk_colon: Punct {
                                    char: ':',
                                    spacing: Alone,
                                },
                                ty: [
                                    String,
                                ],
                            },
                        ),
                    ],
                    where_clause: None,
                    tk_return_arrow: None,
                    return_ty: None,
                    tk_semicolon: None,
                    body: Some(
                        Group {
                            delimiter: Brace,
                            stream: TokenStream [],
                        },
                    ),
                },
            ),
            AssocConstant(
                Constant {
                    attributes: [],
                    vis_marker: None,
                    tk_const_or_static: Ident(
                        const,
                    ),
                    tk_mut: None,
                    name: Ident(
                        CONSTANT,
                    ),
                    tk_colon: Punct {
                        char: ':',
                        spacing: Alone,
                    },
                    ty: [
                        i8,
                    ],
                    tk_equals: Some(
                        Punct {
                            char: '=',
                            spacing: Alone,
                        },
                    ),
                    initializer: Some(
                        [
                            24,
                            \"+\",
                            7,
                        ],
                    ),
                    tk_semicolon: Punct {
                        char: ';',
                        spacing: Alone,
                    },
                },
            ),
            Macro(
                Macro {
                    attributes: [
                        Attribute {
                            tk_hash: Punct {
                                char: '#',
                                spacing: Alone,
                            },
                            tk_brackets: [],
                            path: [
                                clippy,
                                \":\",
                                \":\",
                                allow,
                            ],
                            value: Group(
                                [
                                    venial,
                                ],
                                (),
                            ),
                        },
                    ],
                    name: Ident(
                        fn_macro,
                    ),
                    tk_bang: Punct {
                        char: '!',
                        spacing: Alone,
                    },
                    tk_declared_name: None,
                    tk_braces_or_parens: (),
                    inner_tokens: [
                        Ident {
                            sym: MyTrait,
                        },
                    ],
                    tk_semicolon: Some(
                        Punct {
                            char: ';',
                            spacing: Alone,
                        },
                    ),
                },
            ),
            Macro(
                Macro {
                    attributes: [],
                    name: Ident(
                        block_macro,
                    ),
                    tk_bang: Punct {
                        char: '!',
                        spacing: Alone,
                    },
                    tk_declared_name: None,
                    tk_braces_or_parens: {},
                    inner_tokens: [
                        Ident {
                            sym: fn,
                        },
                        Ident {
                            sym: inner_fn,
                        },
                        Group {
                            delimiter: Parenthesis,
                            stream: TokenStream [],
                        },
                        Punct {
                            char: '-',
                            spacing: Joint,
                        },
                        Punct {
                            char: '>',
                            spacing: Alone,
                        },
                        Ident {
                            sym: bool,
                        },
                        Punct {
                            char: ';',
                            spacing: Alone,
                        },
                    ],
                    tk_semicolon: None,
                },
            ),
        ],
    },
)"

/-! `parse_impl_trait_generic` -/
#guard shows Item.debug (checked [w "unsafe", w "impl", pu '<', pj '\'', w "a", pu ',', w "T", pu ',', w "const", w "N", pu ':', w "i8", pu '>', w "traits", pj ':', pu ':', w "MyTrait", pu '<', w "T", pu ',', w "N", pu '>', w "for", w "structs", pj ':', pu ':', w "MyStruct", pu '<', pj '\'', w "a", pu ',', w "T", pu '>', w "where", w "T", pu ':', w "Clone", pu ',', braces [pu '#', brackets [w "attr"], w "pub", parens [w "crate"], w "const", w "CONSTANT", pu ':', w "i8", pu '=', w "N", pu ';']]) "Impl(
    Impl {
        attributes: [],
        tk_unsafe: Some(
            Ident(
                unsafe,
            ),
        ),
        tk_impl: Ident(
            impl,
        ),
        impl_generic_params: Some(
            [
                GenericParam {
                    tk_prefix: \"'\",
                    name: \"a\",
                    bound: None,
                },
                GenericParam {
                    name: \"T\",
                    bound: None,
                },
                GenericParam {
                    tk_prefix: \"const\",
                    name: \"N\",
                    bound: Some(
                        [
                            i8,
                        ],
                    ),
                },
            ],
        ),
        trait_ty: Some(
            [
                traits,
                \":\",
                \":\",
                MyTrait,
                \"<\",
                T,
                \",\",
                N,
                \">\",
            ],
        ),
        tk_for: Some(
            Ident(
                for,
            ),
        ),
        self_ty: [
            structs,
            \":\",
            \":\",
            MyStruct,
            \"<\",
            \"'\",
            a,
            \",\",
            T,
            \">\",
        ],
        where_clause: Some(
            [
                [
                    T,
                    \":\",
                    Clone,
                ],
            ],
        ),
        tk_braces: {},
        inner_attributes: [],
        body_items: [
            AssocConstant(
                Constant {
                    attributes: [
                        Attribute {
                            tk_hash: Punct {
                                char: '#',
                                spacing: Alone,
                            },
                            tk_brackets: [],
                            path: [
                                attr,
                            ],
                            value: Empty,
                        },
                    ],
                    vis_marker: Some(
                        pub(
                            crate,
                        ),
                    ),
                    tk_const_or_static: Ident(
                        const,
                    ),
                    tk_mut: None,
                    name: Ident(
                        CONSTANT,
                    ),
                    tk_colon: Punct {
                        char: ':',
                        spacing: Alone,
                    },
                    ty: [
                        i8,
                    ],
                    tk_equals: Some(
                        Punct {
                            char: '=',
                            spacing: Alone,
                        },
                    ),
                    initializer: Some(
                        [
                            N,
                        ],
                    ),
                    tk_semicolon: Punct {
                        char: ';',
                        spacing: Alone,
                    },
                },
            ),
        ],
    },
)"

/-! `parse_type_simple` -/
#guard shows Item.debug (checked [w "type", w "MyType", pu '=', w "std", pj ':', pu ':', w "string", pj ':', pu ':', w "String", pu ';']) "TypeAlias(
    TypeAlias {
        attributes: [],
        vis_marker: None,
        tk_type: Ident(
            type,
        ),
        name: Ident(
            MyType,
        ),
        bound: None,
        tk_equals: Some(
            Punct {
                char: '=',
                spacing: Alone,
            },
        ),
        initializer_ty: Some(
            [
                std,
                \":\",
                \":\",
                string,
                \":\",
                \":\",
                String,
            ],
        ),
        tk_semicolon: Punct {
            char: ';',
            spacing: Alone,
        },
    },
)"

/-! `parse_type_complex` -/
#guard shows Item.debug (checked [pu '#', brackets [w "attribute"], w "pub", parens [w "crate"], w "type", w "MyType", pu '=', w "some", pj ':', pu ':', w "module", pj ':', pu ':', w "OtherType", pu '<', w "i32", pu ',', lit "10", pu '>', pj ':', pu ':', w "AssocType", pu '<', w "Item", pu '=', w "char", pu '>', pu ';']) "TypeAlias(
    TypeAlias {
        attributes: [
            Attribute {
                tk_hash: Punct {
                    char: '#',
                    spacing: Alone,
                },
                tk_brackets: [],
                path: [
                    attribute,
                ],
                value: Empty,
            },
        ],
        vis_marker: Some(
            pub(
                crate,
            ),
        ),
        tk_type: Ident(
            type,
        ),
        name: Ident(
            MyType,
        ),
        bound: None,
        tk_equals: Some(
            Punct {
                char: '=',
                spacing: Alone,
            },
        ),
        initializer_ty: Some(
            [
                some,
                \":\",
                \":\",
                module,
                \":\",
                \":\",
                OtherType,
                \"<\",
                i32,
                \",\",
                10,
                \">\",
                \":\",
                \":\",
                AssocType,
                \"<\",
                Item,
                \"=\",
                char,
                \">\",
            ],
        ),
        tk_semicolon: Punct {
            char: ';',
            spacing: Alone,
        },
    },
)"

/-! `parse_constant_simple` -/
#guard shows Item.debug (checked [w "const", w "CONSTANT", pu ':', w "i32", pu '=', lit "20", pu ';']) "Constant(
    Constant {
        attributes: [],
        vis_marker: None,
        tk_const_or_static: Ident(
            const,
        ),
        tk_mut: None,
        name: Ident(
            CONSTANT,
        ),
        tk_colon: Punct {
            char: ':',
            spacing: Alone,
        },
        ty: [
            i32,
        ],
        tk_equals: Some(
            Punct {
                char: '=',
                spacing: Alone,
            },
        ),
        initializer: Some(
            [
                20,
            ],
        ),
        tk_semicolon: Punct {
            char: ';',
            spacing: Alone,
        },
    },
)"

/-! `parse_constant_complex` -/
#guard shows Item.debug (checked [pu '#', brackets [w "attribute"], w "pub", parens [w "crate"], w "const", w "CONSTANT", pu ':', w "some", pj ':', pu ':', w "complex", pj ':', pu ':', w "Type", pu '<', pj '\'', w "static", pu ',', w "bool", pu '>', pu '=', w "some", pj ':', pu ':', w "complex", pj ':', pu ':', w "Expr", pu '+', lit "77", pu ';']) "Constant(
    Constant {
        attributes: [
            Attribute {
                tk_hash: Punct {
                    char: '#',
                    spacing: Alone,
                },
                tk_brackets: [],
                path: [
                    attribute,
                ],
                value: Empty,
            },
        ],
        vis_marker: Some(
            pub(
                crate,
            ),
        ),
        tk_const_or_static: Ident(
            const,
        ),
        tk_mut: None,
        name: Ident(
            CONSTANT,
        ),
        tk_colon: Punct {
            char: ':',
            spacing: Alone,
        },
        ty: [
            some,
            \":\",
            \":\",
            complex,
            \":\",
            \":\",
            Type,
            \"<\",
            \"'\",
            static,
            \",\",
            bool,
            \">\",
        ],
        tk_equals: Some(
            Punct {
                char: '=',
                spacing: Alone,
            },
        ),
        initializer: Some(
            [
                some,
                \":\",
                \":\",
                complex,
                \":\",
                \":\",
                Expr,
                \"+\",
                77,
            ],
        ),
        tk_semicolon: Punct {
            char: ';',
            spacing: Alone,
        },
    },
)"

/-! `parse_constant_expressionless` -/
#guard shows Item.debug (checked [w "const", w "CONSTANT", pu ':', w "some", pj ':', pu ':', w "Type", pu ';']) "Constant(
    Constant {
        attributes: [],
        vis_marker: None,
        tk_const_or_static: Ident(
            const,
        ),
        tk_mut: None,
        name: Ident(
            CONSTANT,
        ),
        tk_colon: Punct {
            char: ':',
            spacing: Alone,
        },
        ty: [
            some,
            \":\",
            \":\",
            Type,
        ],
        tk_equals: None,
        initializer: None,
        tk_semicolon: Punct {
            char: ';',
            spacing: Alone,
        },
    },
)"

/-! `interpret_ty_expr_simple_as_path` -/
#guard shows Path.debug ((some (TypeExpr.mk [pj ':', pu ':', w "path", pj ':', pu ':', w "to", pj ':', pu ':', w "Type"])).bind fun t => path t) "Path {
    segments: [
        PathSegment {
            tk_separator_colons: \"::\",
            ident: Ident(
                path,
            ),
        },
        PathSegment {
            tk_separator_colons: \"::\",
            ident: Ident(
                to,
            ),
        },
        PathSegment {
            tk_separator_colons: \"::\",
            ident: Ident(
                Type,
            ),
        },
    ],
}"

/-! `interpret_ty_expr_generic_as_path` -/
#guard shows Path.debug ((some (TypeExpr.mk [w "path", pj ':', pu ':', w "to", pj ':', pu ':', w "Type", pu '<', pj '\'', w "a", pu ',', w "other", pj ':', pu ':', w "Arg", pu ',', lit "36", pu '>', pj ':', pu ':', w "Turbofish", pj ':', pu ':', pu '<', pu '>'])).bind fun t => path t) "Path {
    segments: [
        PathSegment {
            ident: Ident(
                path,
            ),
        },
        PathSegment {
            tk_separator_colons: \"::\",
            ident: Ident(
                to,
            ),
        },
        PathSegment {
            tk_separator_colons: \"::\",
            ident: Ident(
                Type,
            ),
            generic_args: GenericArgList {
                args: [
                    Lifetime {
                        lifetime: Lifetime {
                            tk_apostrophe: Punct {
                                char: '\\'',
                                spacing: Joint,
                            },
                            name: Ident(
                                a,
                            ),
                        },
                    },
                    TypeOrConst {
                        expr: [
                            other,
                            \":\",
                            \":\",
                            Arg,
                        ],
                    },
                    TypeOrConst {
                        expr: [
                            36,
                        ],
                    },
                ],
            },
        },
        PathSegment {
            tk_separator_colons: \"::\",
            ident: Ident(
                Turbofish,
            ),
            generic_args: GenericArgList {
                tk_turbofish_colons: \"::\",
                args: [],
            },
        },
    ],
}"

/-! `interpret_ty_expr_invalid_as_path` -/
#guard isNotPath (some (TypeExpr.mk [parens []]))

/-! `interpret_ty_expr_from_declarative_macro` -/
#guard shows Path.debug (((item [w "impl", w "Trait", w "for", grp .none [w "path", pj ':', pu ':', w "to", pj ':', pu ':', w "Type"], braces []]).bind fun i => i.as_impl).bind fun i => path i.self_ty) "Path {
    segments: [
        PathSegment {
            ident: Ident(
                path,
            ),
        },
        PathSegment {
            tk_separator_colons: \"::\",
            ident: Ident(
                to,
            ),
        },
        PathSegment {
            tk_separator_colons: \"::\",
            ident: Ident(
                Type,
            ),
        },
    ],
}"

/-! `parse_mod` -/
#guard shows Item.debug (checked [pu '#', brackets [w "path", pu '=', lit "\"some/module\""], w "mod", w "one_module", braces [pu '#', pu '!', brackets [w "allow", parens [w "clippy", pj ':', pu ':', w "iter_with_drain"]], w "use", w "std", pj ':', pu ':', w "clone", pj ':', pu ':', w "Clone", w "as", w "Clown", pu ';', w "use", w "std", pj ':', pu ':', w "cell", pj ':', pu ':', braces [w "Cell", pu ',', w "RefCell"], pu ';', w "pub", w "struct", w "MyStruct", braces [w "field", pu ':', w "i32", pu ','], w "impl", w "MyStruct", braces [], w "impl", w "MyTrait", w "for", w "MyStruct", braces [], pu '#', brackets [w "derive", parens [w "Copy", pu ',', w "Clone"]], w "enum", w "Enum", braces [w "Variant", pu ','], w "fn", w "f", parens [], pj '-', pu '>', w "bool", braces [w "true"], w "pub", w "use", w "crate", pj ':', pu ':', braces [w "A", pu ',', w "self", pu ',', w "b", pj ':', pu ':', w "c"], pu ';', w "const", w "C", pu ':', w "i32", pu '=', pu '-', lit "8", pu '*', lit "2", pu ';', w "pub", w "static", w "MUTEX", pu ':', w "std", pj ':', pu ':', w "sync", pj ':', pu ':', w "Mutex", pu '<', w "i32", pu '>', pu '=', w "std", pj ':', pu ':', w "sync", pj ':', pu ':', w "Mutex", pj ':', pu ':', w "new", parens [lit "0"], pu ';', w "type", w "MyType", pu '=', w "Rc", pu '<', w "RefCell", pu '<', w "MyStruct", pj '>', pu '>', pu ';', w "mod", w "nested_mod", braces [w "fn", w "g", parens [], braces []], w "mod", w "empty_mod", braces [], w "pub", parens [w "crate"], w "mod", w "foreign_mod", pu ';', pu '#', brackets [w "contain_it"], w "unsafe", w "mod", w "hazard_mod", braces [], w "decl_macro", pu '!', parens [w "args", pu ',', lit "32", pu ';', pu '+', pu '*'], pu ';', pu '#', brackets [w "macro_export"], w "macro_rules", pu '!', w "stringificate", braces [parens [], pj '=', pu '>', braces [lit "\"<None>\""], parens [pu '$', w "item", pu ':', w "item"], pj '=', pu '>', braces [w "stringify", pu '!', parens [pu '$', w "item"]], pu ';']]]) "Module(
    Module {
        attributes: [
            Attribute {
                tk_hash: Punct {
                    char: '#',
                    spacing: Alone,
                },
                tk_brackets: [],
                path: [
                    path,
                ],
                value: Equals(
                    [
                        \"some/module\",
                    ],
                    Punct {
                        char: '=',
                        spacing: Alone,
                    },
                ),
            },
        ],
        vis_marker: None,
        tk_unsafe: None,
        tk_mod: Ident(
            mod,
        ),
        name: Ident(
            one_module,
        ),
        tk_semicolon: None,
        tk_braces: Some(
            {},
        ),
        inner_attributes: [
            Attribute {
                tk_hash: Punct {
                    char: '#',
                    spacing: Alone,
                },
                tk_bang: Punct {
                    char: '!',
                    spacing: Alone,
                },
                tk_brackets: [],
                path: [
                    allow,
                ],
                value: Group(
                    [
                        clippy,
                        \":\",
                        \":\",
                        iter_with_drain,
                    ],
                    (),
                ),
            },
        ],
        members: [
            UseDeclaration(
                UseDeclaration {
                    attributes: [],
                    vis_marker: None,
                    tk_use: Ident(
                        use,
                    ),
                    import_tree: [
                        std,
                        \":\",
                        \":\",
                        clone,
                        \":\",
                        \":\",
                        Clone,
                        as,
                        Clown,
                    ],
                    tk_semicolon: Punct {
                        char: ';',
                        spacing: Alone,
                    },
                },
            ),
            UseDeclaration(
                UseDeclaration {
                    attributes: [],
                    vis_marker: None,
                    tk_use: Ident(
                        use,
                    ),
                    import_tree: [
                        std,
                        \":\",
                        \":\",
                        cell,
                        \":\",
                        \":\",
                        Group {
                            delimiter: Brace,
                            stream: TokenStream [
                                Ident {
                                    sym: Cell,
                                },
                                Punct {
                                    char: ',',
                                    spacing: Alone,
                                },
                                Ident {
                                    sym: RefCell,
                                },
                            ],
                        },
                    ],
                    tk_semicolon: Punct {
                        char: ';',
                        spacing: Alone,
                    },
                },
            ),
            Struct(
                Struct {
                    attributes: [],
                    vis_marker: Some(
                        pub,
                    ),
                    tk_struct: Ident(
                        struct,
                    ),
                    name: Ident(
                        MyStruct,
                    ),
                    generic_params: None,
                    where_clause: None,
                    fields: Named(
                        [
                            NamedField {
                                attributes: [],
                                vis_marker: None,
                                name: Ident(
                                    field,
                                ),
                                tk_colon: Punct {
                                    char: ':',
                                    spacing: Alone,
                                },
                                ty: [
                                    i32,
                                ],
                            },
                        ],
                    ),
                    tk_semicolon: None,
                },
            ),
            Impl(
                Impl {
                    attributes: [],
                    tk_unsafe: None,
                    tk_impl: Ident(
                        impl,
                    ),
                    impl_generic_params: None,
                    trait_ty: None,
                    tk_for: None,
                    self_ty: [
                        MyStruct,
                    ],
                    where_clause: None,
                    tk_braces: {},
                    inner_attributes: [],
                    body_items: [],
                },
            ),
            Impl(
                Impl {
                    attributes: [],
                    tk_unsafe: None,
                    tk_impl: Ident(
                        impl,
                    ),
                    impl_generic_params: None,
                    trait_ty: Some(
                        [
                            MyTrait,
                        ],
                    ),
                    tk_for: Some(
                        Ident(
                            for,
                        ),
                    ),
                    self_ty: [
                        MyStruct,
                    ],
                    where_clause: None,
                    tk_braces: {},
                    inner_attributes: [],
                    body_items: [],
                },
            ),
            Enum(
                Enum {
                    attributes: [
                        Attribute {
                            tk_hash: Punct {
                                char: '#',
                                spacing: Alone,
                            },
                            tk_brackets: [],
                            path: [
                                derive,
                            ],
                            value: Group(
                                [
                                    Copy,
                                    \",\",
                                    Clone,
                                ],
                                (),
                            ),
                        },
                    ],
                    vis_marker: None,
                    tk_enum: Ident(
                        enum,
                    ),
                    name: Ident(
                        Enum,
                    ),
                    generic_params: None,
                    where_clauses: None,
                    variants: [
                        EnumVariant {
                            attributes: [],
                            vis_marker: None,
                            name: Ident(
                                Variant,
                            ),
                            fields: Unit,
                            value: None,
                        },
                    ],
                },
            ),
            Function(
                Function {
                    attributes: [],
                    vis_marker: None,
                    qualifiers: FnQualifiers {
                        tk_default: None,
                        tk_const: None,
                        tk_async: None,
                        tk_unsafe: None,
                        tk_extern: None,
                        extern_abi: None,
                    },
                    tk_fn_keyword: Ident(
                        fn,
                    ),
                    name: Ident(
                        f,
                    ),
                    generic_params: None,
                    tk_params_parens: (),
                    params: [],
                    where_clause: None,
                    tk_return_arrow: Some(
                        [
                            Punct {
                                char: '-',
                                spacing: Joint,
                            },
                            Punct {
                                char: '>',
                                spacing: Alone,
                            },
                        ],
                    ),
                    return_ty: Some(
                        [
                            bool,
                        ],
                    ),
                    tk_semicolon: None,
                    body: Some(
                        Group {
                            delimiter: Brace,
                            stream: TokenStream [
                                Ident {
                                    sym: true,
                                },
                            ],
                        },
                    ),
                },
            ),
            UseDeclaration(
                UseDeclaration {
                    attributes: [],
                    vis_marker: Some(
                        pub,
                    ),
                    tk_use: Ident(
                        use,
                    ),
                    import_tree: [
                        crate,
                        \":\",
                        \":\",
                        Group {
                            delimiter: Brace,
                            stream: TokenStream [
                                Ident {
                                    sym: A,
                                },
                                Punct {
                                    char: ',',
                                    spacing: Alone,
                                },
                                Ident {
                                    sym: self,
                                },
                                Punct {
                                    char: ',',
                                    spacing: Alone,
                                },
                                Ident {
                                    sym: b,
                                },
                                Punct {
                                    char: ':',
                                    spacing: Joint,
                                },
                                Punct {
                                    char: ':',
                                    spacing: Alone,
                                },
                                Ident {
                                    sym: c,
                                },
                            ],
                        },
                    ],
                    tk_semicolon: Punct {
                        char: ';',
                        spacing: Alone,
                    },
                },
            ),
            Constant(
                Constant {
                    attributes: [],
                    vis_marker: None,
                    tk_const_or_static: Ident(
                        const,
                    ),
                    tk_mut: None,
                    name: Ident(
                        C,
                    ),
                    tk_colon: Punct {
                        char: ':',
                        spacing: Alone,
                    },
                    ty: [
                        i32,
                    ],
                    tk_equals: Some(
                        Punct {
                            char: '=',
                            spacing: Alone,
                        },
                    ),
                    initializer: Some(
                        [
                            \"-\",
                            8,
                            \"*\",
                            2,
                        ],
                    ),
                    tk_semicolon: Punct {
                        char: ';',
                        spacing: Alone,
                    },
                },
            ),
            Constant(
                Constant {
                    attributes: [],
                    vis_marker: Some(
                        pub,
                    ),
                    tk_const_or_static: Ident(
                        static,
                    ),
                    tk_mut: None,
                    name: Ident(
                        MUTEX,
                    ),
                    tk_colon: Punct {
                        char: ':',
                        spacing: Alone,
                    },
                    ty: [
                        std,
                        \":\",
                        \":\",
                        sync,
                        \":\",
                        \":\",
                        Mutex,
                        \"<\",
                        i32,
                        \">\",
                    ],
                    tk_equals: Some(
                        Punct {
                            char: '=',
                            spacing: Alone,
                        },
                    ),
                    initializer: Some(
                        [
                            std,
                            \":\",
                            \":\",
                            sync,
                            \":\",
                            \":\",
                            Mutex,
                            \":\",
                            \":\",
                            new,
                            Group {
                                delimiter: Parenthesis,
                                stream: TokenStream [
                                    Literal {
                                        lit: 0,
                                    },
                                ],
                            },
                        ],
                    ),
                    tk_semicolon: Punct {
                        char: ';',
                        spacing: Alone,
                    },
                },
            ),
            TypeAlias(
                TypeAlias {
                    attributes: [],
                    vis_marker: None,
                    tk_type: Ident(
                        type,
                    ),
                    name: Ident(
                        MyType,
                    ),
                    bound: None,
                    tk_equals: Some(
                        Punct {
                            char: '=',
                            spacing: Alone,
                        },
                    ),
                    initializer_ty: Some(
                        [
                            Rc,
                            \"<\",
                            RefCell,
                            \"<\",
                            MyStruct,
                            \">\",
                            \">\",
                        ],
                    ),
                    tk_semicolon: Punct {
                        char: ';',
                        spacing: Alone,
                    },
                },
            ),
            Module(
                Module {
                    attributes: [],
                    vis_marker: None,
                    tk_unsafe: None,
                    tk_mod: Ident(
                        mod,
                    ),
                    name: Ident(
                        nested_mod,
                    ),
                    tk_semicolon: None,
                    tk_braces: Some(
                        {},
                    ),
                    inner_attributes: [],
                    members: [
                        Function(
                            Function {
                                attributes: [],
                                vis_marker: None,
                                qualifiers: FnQualifiers {
                                    tk_default: None,
                                    tk_const: None,
                                    tk_async: None,
                                    tk_unsafe: None,
                                    tk_extern: None,
                                    extern_abi: None,
                                },
                                tk_fn_keyword: Ident(
                                    fn,
                                ),
                                name: Ident(
                                    g,
                                ),
                                generic_params: None,
                                tk_params_parens: (),
                                params: [],
                                where_clause: None,
                                tk_return_arrow: None,
                                return_ty: None,
                                tk_semicolon: None,
                                body: Some(
                                    Group {
                                        delimiter: Brace,
                                        stream: TokenStream [],
                                    },
                                ),
                            },
                        ),
                    ],
                },
            ),
            Module(
                Module {
                    attributes: [],
                    vis_marker: None,
                    tk_unsafe: None,
                    tk_mod: Ident(
                        mod,
                    ),
                    name: Ident(
                        empty_mod,
                    ),
                    tk_semicolon: None,
                    tk_braces: Some(
                        {},
                    ),
                    inner_attributes: [],
                    members: [],
                },
            ),
            Module(
                Module {
                    attributes: [],
                    vis_marker: Some(
                        pub(
                            crate,
                        ),
                    ),
                    tk_unsafe: None,
                    tk_mod: Ident(
                        mod,
                    ),
                    name: Ident(
                        foreign_mod,
                    ),
                    tk_semicolon: Some(
                        Punct {
                            char: ';',
                            spacing: Alone,
                        },
                    ),
                    tk_braces: None,
                    inner_attributes: [],
                    members: [],
                },
            ),
            Module(
                Module {
                    attributes: [
                        Attribute {
                            tk_hash: Punct {
                                char: '#',
                                spacing: Alone,
                            },
                            tk_brackets: [],
                            path: [
                                contain_it,
                            ],
                            value: Empty,
                        },
                    ],
                    vis_marker: None,
                    tk_unsafe: Some(
                        Ident(
                            unsafe,
                        ),
                    ),
                    tk_mod: Ident(
                        mod,
                    ),
                    name: Ident(
                        hazard_mod,
                    ),
                    tk_semicolon: None,
                    tk_braces: Some(
                        {},
                    ),
                    inner_attributes: [],
                    members: [],
                },
            ),
            Macro(
                Macro {
                    attributes: [],
                    name: Ident(
                        decl_macro,
                    ),
                    tk_bang: Punct {
                        char: '!',
                        spacing: Alone,
                    },
                    tk_declared_name: None,
                    tk_braces_or_parens: (),
                    inner_tokens: [
                        Ident {
                            sym: args,
                        },
                        Punct {
                            char: ',',
                            spacing: Alone,
                        },
                        Literal {
                            lit: 32,
                        },
                        Punct {
                            char: ';',
                            spacing: Alone,
                        },
                        Punct {
                            char: '+',
                            spacing: Alone,
                        },
                        Punct {
                            char: '*',
                            spacing: Alone,
                        },
                    ],
                    tk_semicolon: Some(
                        Punct {
                            char: ';',
                            spacing: Alone,
                        },
                    ),
                },
            ),
            Macro(
                Macro {
                    attributes: [
                        Attribute {
                            tk_hash: Punct {
                                char: '#',
                                spacing: Alone,
                            },
                            tk_brackets: [],
                            path: [
                                macro_export,
                            ],
                            value: Empty,
                        },
                    ],
                    name: Ident(
                        macro_rules,
                    ),
                    tk_bang: Punct {
                        char: '!',
                        spacing: Alone,
                    },
                    tk_declared_name: Some(
                        Ident(
                            stringificate,
                        ),
                    ),
                    tk_braces_or_parens: {},
                    inner_tokens: [
                        Group {
                            delimiter: Parenthesis,
                            stream: TokenStream [],
                        },
                        Punct {
                            char: '=',
                            spacing: Joint,
                        },
                        Punct {
                            char: '>',
                            spacing: Alone,
                        },
                        Group {
                            delimiter: Brace,
                            stream: TokenStream [
                                Literal {
                                    lit: \"<None>\",
                                },
                            ],
                        },
                        Group {
                            delimiter: Parenthesis,
                            stream: TokenStream [
                                Punct {
                                    char: '$',
                                    spacing: Alone,
                                },
                                Ident {
                                    sym: item,
                                },
                                Punct {
                                    char: ':',
                                    spacing: Alone,
                                },
                                Ident {
                                    sym: item,
                                },
                            ],
                        },
                        Punct {
                            char: '=',
                            spacing: Joint,
                        },
                        Punct {
                            char: '>',
                            spacing: Alone,
                        },
                        Group {
                            delimiter: Brace,
                            stream: TokenStream [
                                Ident {
                                    sym: stringify,
                                },
                                Punct {
                                    char: '!',
                                    spacing: Alone,
                                },
                                Group {
                                    delimiter: Parenthesis,
                                    stream: TokenStream [
                                        Punct {
                                            char: '$',
                                            spacing: Alone,
                                        },
                                        Ident {
                                            sym: item,
                                        },
                                    ],
                                },
                            ],
                        },
                        Punct {
                            char: ';',
                            spacing: Alone,
                        },
                    ],
                    tk_semicolon: None,
                },
            ),
        ],
    },
)"

/-! `parse_trait_simple` -/
#guard shows Item.debug (checked [w "trait", w "MyTrait", braces [pu '#', pu '!', brackets [w "inner", pj ':', pu ':', w "attr"], w "fn", w "abstract", parens [pu '&', w "self"], pj '-', pu '>', w "i32", pu ';', w "fn", w "with_default", parens [], pj '-', pu '>', w "bool", braces [w "true"], w "const", w "LONG_NAME", pu ':', pu '&', pj '\'', w "static", w "str", pu ';', w "const", w "SHORT_NAME", pu ':', w "char", pu '=', lit "'T'", pu ';', w "type", w "AssocType", pu ':', w "Bound", pu ';', w "type", w "TypeWithDefault", pu '=', w "Rc", pu '<', w "RefCell", pu '<', w "MyStruct", pj '>', pu '>', pu ';', w "decl_macro", pu '!', parens [], pu ';', w "python", pu '!', braces [w "def", w "hello", parens [w "b"], pu ':', w "return", lit "\"hello world\"", w "if", w "b", w "else", lit "\"bye world\""]]]) "Trait(
    Trait {
        attributes: [],
        vis_marker: None,
        tk_unsafe: None,
        tk_trait: Ident(
            trait,
        ),
        name: Ident(
            MyTrait,
        ),
        generic_params: None,
        bound: None,
        where_clause: None,
        tk_braces: {},
        inner_attributes: [
            Attribute {
                tk_hash: Punct {
                    char: '#',
                    spacing: Alone,
                },
                tk_bang: Punct {
                    char: '!',
                    spacing: Alone,
                },
                tk_brackets: [],
                path: [
                    inner,
                    \":\",
                    \":\",
                    attr,
                ],
                value: Empty,
            },
        ],
        body_items: [
            AssocFunction(
                Function {
                    attributes: [],
                    vis_marker: None,
                    qualifiers: FnQualifiers {
                        tk_default: None,
                        tk_const: None,
                        tk_async: None,
                        tk_unsafe: None,
                        tk_extern: None,
                        extern_abi: None,
                    },
                    tk_fn_keyword: Ident(
                        fn,
                    ),
                    name: Ident(
                        abstract,
                    ),
                    generic_params: None,
                    tk_params_parens: (),
                    params: [
                        Receiver(
                            FnReceiverParam {
                                attributes: [],
                                tk_ref: Some(
                                    Punct {
                                        char: '&',
                                        spacing: Alone,
                                    },
                                ),
                                lifetime: None,
                                tk_mut: None,
                                tk_self: Ident(
                                    self,
                                ),
                            },
                        ),
                    ],
                    where_clause: None,
                    tk_return_arrow: Some(
                        [
                            Punct {
                                char: '-',
                                spacing: Joint,
                            },
                            Punct {
                                char: '>',
                                spacing: Alone,
                            },
                        ],
                    ),
                    return_ty: Some(
                        [
                            i32,
                        ],
                    ),
                    tk_semicolon: Some(
                        Punct {
                            char: ';',
                            spacing: Alone,
                        },
                    ),
                    body: None,
                },
            ),
            AssocFunction(
                Function {
                    attributes: [],
                    vis_marker: None,
                    qualifiers: FnQualifiers {
                        tk_default: None,
                        tk_const: None,
                        tk_async: None,
                        tk_unsafe: None,
                        tk_extern: None,
                        extern_abi: None,
                    },
                    tk_fn_keyword: Ident(
                        fn,
                    ),
                    name: Ident(
                        with_default,
                    ),
                    generic_params: None,
                    tk_params_parens: (),
                    params: [],
                    where_clause: None,
                    tk_return_arrow: Some(
                        [
                            Punct {
                                char: '-',
                                spacing: Joint,
                            },
                            Punct {
                                char: '>',
                                spacing: Alone,
                            },
                        ],
                    ),
                    return_ty: Some(
                        [
                            bool,
                        ],
                    ),
                    tk_semicolon: None,
                    body: Some(
                        Group {
                            delimiter: Brace,
                            stream: TokenStream [
                                Ident {
                                    sym: true,
                                },
                            ],
                        },
                    ),
                },
            ),
            AssocConstant(
                Constant {
                    attributes: [],
                    vis_marker: None,
                    tk_const_or_static: Ident(
                        const,
                    ),
                    tk_mut: None,
                    name: Ident(
                        LONG_NAME,
                    ),
                    tk_colon: Punct {
                        char: ':',
                        spacing: Alone,
                    },
                    ty: [
                        \"&\",
                        \"'\",
                        static,
                        str,
                    ],
                    tk_equals: None,
                    initializer: None,
                    tk_semicolon: Punct {
                        char: ';',
                        spacing: Alone,
                    },
                },
            ),
            AssocConstant(
                Constant {
                    attributes: [],
                    vis_marker: None,
                    tk_const_or_static: Ident(
                        const,
                    ),
                    tk_mut: None,
                    name: Ident(
                        SHORT_NAME,
                    ),
                    tk_colon: Punct {
                        char: ':',
                        spacing: Alone,
                    },
                    ty: [
                        char,
                    ],
                    tk_equals: Some(
                        Punct {
                            char: '=',
                            spacing: Alone,
                        },
                    ),
                    initializer: Some(
                        [
                            'T',
                        ],
                    ),
                    tk_semicolon: Punct {
                        char: ';',
                        spacing: Alone,
                    },
                },
            ),
            AssocType(
                TypeAlias {
                    attributes: [],
                    vis_marker: None,
                    tk_type: Ident(
                        type,
                    ),
                    name: Ident(
                        AssocType,
                    ),
                    bound: Some(
                        [
                            Bound,
                        ],
                    ),
                    tk_equals: None,
                    initializer_ty: None,
                    tk_semicolon: Punct {
                        char: ';',
                        spacing: Alone,
                    },
                },
            ),
            AssocType(
                TypeAlias {
                    attributes: [],
                    vis_marker: None,
                    tk_type: Ident(
                        type,
                    ),
                    name: Ident(
                        TypeWithDefault,
                    ),
                    bound: None,
                    tk_equals: Some(
                        Punct {
                            char: '=',
                            spacing: Alone,
                        },
                    ),
                    initializer_ty: Some(
                        [
                            Rc,
                            \"<\",
                            RefCell,
                            \"<\",
                            MyStruct,
                            \">\",
                            \">\",
                        ],
                    ),
                    tk_semicolon: Punct {
                        char: ';',
                        spacing: Alone,
                    },
                },
            ),
            Macro(
                Macro {
                    attributes: [],
                    name: Ident(
                        decl_macro,
                    ),
                    tk_bang: Punct {
                        char: '!',
                        spacing: Alone,
                    },
                    tk_declared_name: None,
                    tk_braces_or_parens: (),
                    inner_tokens: [],
                    tk_semicolon: Some(
                        Punct {
                            char: ';',
                            spacing: Alone,
                        },
                    ),
                },
            ),
            Macro(
                Macro {
                    attributes: [],
                    name: Ident(
                        python,
                    ),
                    tk_bang: Punct {
                        char: '!',
                        spacing: Alone,
                    },
                    tk_declared_name: None,
                    tk_braces_or_parens: {},
                    inner_tokens: [
                        Ident {
                            sym: def,
                        },
                        Ident {
                            sym: hello,
                        },
                        Group {
                            delimiter: Parenthesis,
                            stream: TokenStream [
                                Ident {
                                    sym: b,
                                },
                            ],
                        },
                        Punct {
                            char: ':',
                            spacing: Alone,
                        },
                        Ident {
                            sym: return,
                        },
                        Literal {
                            lit: \"hello world\",
                        },
                        Ident {
                            sym: if,
                        },
                        Ident {
                            sym: b,
                        },
                        Ident {
                            sym: else,
                        },
                        Literal {
                            lit: \"bye world\",
                        },
                    ],
                    tk_semicolon: None,
                },
            ),
        ],
    },
)"

/-! `parse_trait_decorated` -/
#guard shows Item.debug (checked [pu '#', brackets [w "fancy", pj ':', pu ':', w "api"], w "pub", parens [w "super"], w "unsafe", w "trait", w "MyTrait", pu '<', pj '\'', w "p", pu ',', w "U", pu ',', w "const", w "N", pu '>', pu ':', w "Supertrait", w "where", w "Self", pu ':', w "Sized", braces []]) "Trait(
    Trait {
        attributes: [
            Attribute {
                tk_hash: Punct {
                    char: '#',
                    spacing: Alone,
                },
                tk_brackets: [],
                path: [
                    fancy,
                    \":\",
                    \":\",
                    api,
                ],
                value: Empty,
            },
        ],
        vis_marker: Some(
            pub(
                super,
            ),
        ),
        tk_unsafe: Some(
            Ident(
                unsafe,
            ),
        ),
        tk_trait: Ident(
            trait,
        ),
        name: Ident(
            MyTrait,
        ),
        generic_params: Some(
            [
                GenericParam {
                    tk_prefix: \"'\",
                    name: \"p\",
                    bound: None,
                },
                GenericParam {
                    name: \"U\",
                    bound: None,
                },
                GenericParam {
                    tk_prefix: \"const\",
                    name: \"N\",
                    bound: None,
                },
            ],
        ),
        bound: Some(
            [
                Supertrait,
            ],
        ),
        where_clause: Some(
            [
                [
                    Self,
                    \":\",
                    Sized,
                ],
            ],
        ),
        tk_braces: {},
        inner_attributes: [],
        body_items: [],
    },
)"

/-! `parse_extern_block` -/
#guard shows Item.debug (checked [pu '#', brackets [w "decorated"], w "pub", parens [w "crate"], w "extern", lit "\"stdcall\"", braces [pu '#', pu '!', brackets [w "allow", parens [w "unused_variables"]], w "some_macro", pu '!', parens [], pu ';', w "fn", w "c_function", parens [], pu ';', w "static", w "S", pu ':', w "i32", pu ';']]) "ExternBlock(
    ExternBlock {
        attributes: [
            Attribute {
                tk_hash: Punct {
                    char: '#',
                    spacing: Alone,
                },
                tk_brackets: [],
                path: [
                    decorated,
                ],
                value: Empty,
            },
        ],
        vis_marker: Some(
            pub(
                crate,
            ),
        ),
        tk_unsafe: None,
        tk_extern: Ident(
            extern,
        ),
        extern_abi: Some(
            Literal {
                lit: \"stdcall\",
            },
        ),
        tk_braces: {},
        inner_attributes: [
            Attribute {
                tk_hash: Punct {
                    char: '#',
                    spacing: Alone,
                },
                tk_bang: Punct {
                    char: '!',
                    spacing: Alone,
                },
                tk_brackets: [],
                path: [
                    allow,
                ],
                value: Group(
                    [
                        unused_variables,
                    ],
                    (),
                ),
            },
        ],
        body_items: [
            Macro(
                Macro {
                    attributes: [],
                    name: Ident(
                        some_macro,
                    ),
                    tk_bang: Punct {
                        char: '!',
                        spacing: Alone,
                    },
                    tk_declared_name: None,
                    tk_braces_or_parens: (),
                    inner_tokens: [],
                    tk_semicolon: Some(
                        Punct {
                            char: ';',
                            spacing: Alone,
                        },
                    ),
                },
            ),
            AssocFunction(
                Function {
                    attributes: [],
                    vis_marker: None,
                    qualifiers: FnQualifiers {
                        tk_default: None,
                        tk_const: None,
                        tk_async: None,
                        tk_unsafe: None,
                        tk_extern: None,
                        extern_abi: None,
                    },
                    tk_fn_keyword: Ident(
                        fn,
                    ),
                    name: Ident(
                        c_function,
                    ),
                    generic_params: None,
                    tk_params_parens: (),
                    params: [],
                    where_clause: None,
                    tk_return_arrow: None,
                    return_ty: None,
                    tk_semicolon: Some(
                        Punct {
                            char: ';',
                            spacing: Alone,
                        },
                    ),
                    body: None,
                },
            ),
            AssocConstant(
                Constant {
                    attributes: [],
                    vis_marker: None,
                    tk_const_or_static: Ident(
                        static,
                    ),
                    tk_mut: None,
                    name: Ident(
                        S,
                    ),
                    tk_colon: Punct {
                        char: ':',
                        spacing: Alone,
                    },
                    ty: [
                        i32,
                    ],
                    tk_equals: None,
                    initializer: None,
                    tk_semicolon: Punct {
                        char: ';',
                        spacing: Alone,
                    },
                },
            ),
        ],
    },
)"
#guard shows Item.debug (checked [w "unsafe", w "extern", braces []]) "ExternBlock(
    ExternBlock {
        attributes: [],
        vis_marker: None,
        tk_unsafe: Some(
            Ident(
                unsafe,
            ),
        ),
        tk_extern: Ident(
            extern,
        ),
        extern_abi: None,
        tk_braces: {},
        inner_attributes: [],
        body_items: [],
    },
)"

/-! `parse_extern_crate` -/
#guard shows Item.debug (checked [w "extern", w "crate", w "std", pu ';']) "ExternCrate(
    ExternCrate {
        attributes: [],
        vis_marker: None,
        tk_extern: Ident(
            extern,
        ),
        tk_crate: Ident(
            crate,
        ),
        name: Ident(
            std,
        ),
        tk_as: None,
        alias: None,
        tk_underscore: None,
        tk_semicolon: Punct {
            char: ';',
            spacing: Alone,
        },
    },
)"
#guard shows Item.debug (checked [w "extern", w "crate", w "std", w "as", w "ruststd", pu ';']) "ExternCrate(
    ExternCrate {
        attributes: [],
        vis_marker: None,
        tk_extern: Ident(
            extern,
        ),
        tk_crate: Ident(
            crate,
        ),
        name: Ident(
            std,
        ),
        tk_as: Some(
            Ident(
                as,
            ),
        ),
        alias: Some(
            Ident(
                ruststd,
            ),
        ),
        tk_underscore: None,
        tk_semicolon: Punct {
            char: ';',
            spacing: Alone,
        },
    },
)"
#guard shows Item.debug (checked [w "extern", w "crate", w "self", w "as", w "_", pu ';']) "ExternCrate(
    ExternCrate {
        attributes: [],
        vis_marker: None,
        tk_extern: Ident(
            extern,
        ),
        tk_crate: Ident(
            crate,
        ),
        name: Ident(
            self,
        ),
        tk_as: Some(
            Ident(
                as,
            ),
        ),
        alias: Some(
            Ident(
                _,
            ),
        ),
        tk_underscore: None,
        tk_semicolon: Punct {
            char: ';',
            spacing: Alone,
        },
    },
)"

end Venial.Conformance
