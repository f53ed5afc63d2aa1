#!/usr/bin/env python3
"""Generates lean/Verif/Conformance.lean from /repo/src/tests.rs and /repo/src/snapshots.

The inputs are the arguments of quote!(..) in the tests, split into tokens the way quote! does: an operator of several
characters gives joint characters, of which the last is not joint.  The expected outputs are the recorded snapshots.
"""
import re, glob, os

SRC = open("/repo/src/tests.rs").read()
OPS = ["<<=", ">>=", "...", "..=", "::", "->", "=>", "==", "!=", "<=", ">=", "&&", "||", "+=", "-=", "*=", "/=", "%=", "^=", "&=", "|=",
       "<<", ">>", ".."]
CLOSE = {"(": ")", "[": "]", "{": "}"}
NAME = {"(": "parens", "[": "brackets", "{": "braces"}

def lex(s, i, end):
    """Tokens up to the closing delimiter `end`; returns them and the position after it."""
    out = []
    while True:
        while i < len(s) and s[i].isspace(): i += 1
        if i >= len(s):
            assert end is None
            return out, i
        if s.startswith("//", i):
            assert not s.startswith("///", i)
            i = s.index("\n", i); continue
        c = s[i]
        if c == end: return out, i + 1
        if c in CLOSE:
            inner, i = lex(s, i + 1, CLOSE[c])
            out.append("%s [%s]" % (NAME[c], ", ".join(inner))); continue
        m = re.compile(r'"(?:[^"\\]|\\.)*"').match(s, i)
        if m:
            out.append("lit %s" % lean_str(m.group(0))); i = m.end(); continue
        m = re.compile(r"'(?:[^'\\]|\\.)'").match(s, i)
        if m:
            out.append("lit %s" % lean_str(m.group(0))); i = m.end(); continue
        m = re.compile(r"'([A-Za-z_]\w*)").match(s, i)
        if m:
            out += ["pj '\\''", 'w "%s"' % m.group(1)]; i = m.end(); continue
        m = re.compile(r"[A-Za-z_]\w*").match(s, i)
        if m:
            out.append('w "%s"' % m.group(0)); i = m.end(); continue
        m = re.compile(r"\d\w*(\.\d\w*)?").match(s, i)
        if m:
            out.append('lit "%s"' % m.group(0)); i = m.end(); continue
        if c == "#" and re.match(r"#[A-Za-z_]", s[i:]):
            m = re.compile(r"#(\w+)").match(s, i)
            out.append("INTERPOLATED_" + m.group(1)); i = m.end(); continue
        for op in OPS:
            if s.startswith(op, i): break
        else: op = c
        for k, ch in enumerate(op):
            out.append("%s '%s'" % ("pu" if k == len(op) - 1 else "pj", ch))
        i += len(op)

def lean_str(s):
    return '"' + s.replace("\\", "\\\\").replace('"', '\\"') + '"'

def snapshot(name, n):
    f = "/repo/src/snapshots/venial__tests__%s%s.snap" % (name, "" if n == 1 else "-%d" % n)
    used.add(f)
    text = open(f).read()
    return text.split("---\n", 2)[2].rstrip("\n")

used = set()
quotes = []
def take_quotes(body):
    """Replaces each quote!(..) by QUOTE<k>."""
    out, i = "", 0
    for_m = re.compile(r"quote(?:::quote)?!\s*([(\[{])")
    while True:
        m = for_m.search(body, i)
        if not m: return out + body[i:]
        out += body[i:m.start()]
        toks, i = lex(body, m.end(), CLOSE[m.group(1)])
        quotes.append("[" + ", ".join(toks) + "]")
        out += "QUOTE%d" % (len(quotes) - 1)

L = []
def emit(s): L.append(s)
skipped = []

tests = re.findall(r"#\[test\]\n((?:#\[[^\n]*\]\n)*)fn (\w+)\(\) \{\n(.*?)\n\}\n", SRC, re.S)
def Q(x):
    return re.sub(r"QUOTE(\d+)", lambda m: quotes[int(m.group(1))], x)

for attrs, name, body in tests:
    body = take_quotes(re.sub(r"^\s*//.*\n", "", body, flags=re.M))
    body = re.sub(r"#\[rustfmt::skip\].*\n", "", body)
    body = re.sub(r"\s+", " ", body).strip()
    panics = "should_panic" in attrs
    env, n, lines = {}, 0, []
    ok = True
    def ev(e):
        """A Lean expression of type `Option (the value)`, and its kind."""
        e = e.strip()
        if e in env: return env[e]
        if re.fullmatch(r"QUOTE\d+", e): return Q(e), "tokens"
        m = re.fullmatch(r"(parse_declaration_checked|parse_struct_declaration|parse_generic_args_checked|parse_item)\((.*?)\)\s*(\.unwrap\(\))?", e)
        if m:
            ts, k = ev(m.group(2)); assert k == "tokens"
            f = m.group(1)
            if f == "parse_item" and not m.group(3): return "(result %s)" % ts, "result"
            if f == "parse_item": return "(item %s)" % ts, "item"
            if f == "parse_declaration_checked": return "(checked %s)" % ts, "item"
            if f == "parse_generic_args_checked": return "(args %s)" % ts, "args"
            return "(struct %s)" % ts, "struct"
        m = re.fullmatch(r"(\w+)\.with_param\(GenericParam::(lifetime|ty)\((\"\w+\")\)\)", e)
        if m:
            return "(%s.map fun s => s.with_param (GenericParam.%s %s))" % (ev(m.group(1))[0], m.group(2), m.group(3)), "struct"
        m = re.fullmatch(r"(\w+)\.with_param\(GenericParam::(bounded_lifetime|bounded_ty|const_param)\( ?(\"\w+\"), (QUOTE\d+)\.into_iter\(\)\.collect\(\),? ?\)\)", e)
        if m:
            return "(%s.map fun s => s.with_param (GenericParam.%s %s %s))" % (ev(m.group(1))[0], m.group(2), m.group(3), Q(m.group(4))), "struct"
        m = re.fullmatch(r"(\w+)\.with_where_predicate\(WhereClausePredicate::parse\((QUOTE\d+)\)\)", e)
        if m:
            return "(%s.bind fun s => (predicate %s).map s.with_where_predicate)" % (ev(m.group(1))[0], Q(m.group(2))), "struct"
        m = re.fullmatch(r"(\w+)\.attributes\(\)\[(\d+)\]\.get_single_path_segment\(\)", e)
        if m:
            return "(%s.bind fun i => i.attributes[%s]?.map fun a => a.get_single_path_segment)" % (ev(m.group(1))[0], m.group(2)), "option ident"
        m = re.fullmatch(r"(\w+)\.generic_params\(\)\.unwrap\(\)", e)
        if m: return "(%s.bind fun i => i.generic_params)" % ev(m.group(1))[0], "params"
        m = re.fullmatch(r"(\w+)\.as_inline_args\(\)", e)
        if m: return ev(m.group(1))[0], "inline"
        m = re.fullmatch(r"(\w+)\.to_owned_args\(\)", e)
        if m: return "(%s.bind fun p => owned p)" % ev(m.group(1))[0], "args"
        m = re.fullmatch(r"TypeExpr \{ tokens: (\w+)(?:\.clone\(\))?\.into_iter\(\)\.collect\(\), \}", e)
        if m: return "(some (TypeExpr.mk %s))" % ev(m.group(1))[0], "type"
        m = re.fullmatch(r"(\w+)\.as_path\(\)\.expect\(\"as_path\(\)\"\)", e)
        if m: return "(%s.bind fun t => path t)" % ev(m.group(1))[0], "path"
        m = re.fullmatch(r"impl_decl\.self_ty\.as_path\(\)\.expect\(\"as_path\(\)\"\)", e)
        if m: return "(%s.bind fun i => path i.self_ty)" % env["impl_decl"][0], "path"
        m = re.fullmatch(r"(\w+)\.as_path\(\)", e)
        if m: return "(%s.bind fun t => path t)" % ev(m.group(1))[0], "option path"
        raise ValueError(e)
    DEBUG = {"item": "Item.debug", "result": "(debugResult Item.debug)", "args": "GenericArgList.debug", "params": "GenericParamList.debug",
             "option ident": "(debugOption Ident.debug)", "path": "Path.debug"}
    if name == "interpret_ty_expr_from_declarative_macro":
        # the only interpolation: a group without delimiters
        ty = quotes[-2]
        ts = quotes[-1].replace("INTERPOLATED_ty_group", "grp .none %s" % ty)
        env["impl_decl"] = ("((item %s).bind fun i => i.as_impl)" % ts, "impl")
        body = body[body.index("let path"):]
    body = re.sub(r"similar_asserts::assert_eq!\(QUOTE\d+\.to_string\(\), tokens\.to_string\(\)\);?", "", body)
    for st in [x.strip() for x in body.split(";") if x.strip()]:
        try:
            m = re.fullmatch(r"let (?:mut )?(\w+) = (.*)", st)
            if m:
                env[m.group(1)] = ev(m.group(2))
                last = env[m.group(1)]
                continue
            m = re.fullmatch(r"assert_debug_snapshot!\((.*)\)", st)
            if m and not panics:
                v, k = ev(m.group(1)); n += 1
                lines.append("#guard shows %s %s %s" % (DEBUG[k], v, lean_str(snapshot(name, n))))
                continue
            m = re.fullmatch(r"assert_quote_snapshot!\((.*)\)", st)
            if m:
                v, k = ev(m.group(1)); n += 1
                lines.append("#guard prints %s %s" % (v, lean_str(snapshot(name, n))))
                continue
            m = re.fullmatch(r"assert!\((\w+)\.is_none\(\)\)", st)
            if m:
                lines.append("#guard isNotPath %s" % env["ty_expr"][0]); continue
            if panics and (st.startswith("println!") or st.startswith("assert_debug")): continue
            raise ValueError(st)
        except Exception as ex:
            skipped.append((name, st, repr(ex))); ok = False
    if panics:
        # the first binding is the one that panics
        v = last[0]
        lines = ["#guard panics %s" % re.sub(r"^\((\w+) (.*)\)$", r"\2", v, flags=re.S)]
    emit("/-! `%s` -/" % name)
    for l in lines: emit(l)
    emit("")

HEAD = '''import Verif.Parse
import Verif.Edit
import Verif.Debug
import Verif.Spec.Tok

/-!
# Conformance tests

The model, run on the inputs of `/repo/src/tests.rs`, compared with the outputs of the program that are recorded in `/repo/src/snapshots`.  These are
tests of the model, not proofs: they are evaluated by `#guard`.

Generated by `tools/mkconformance.py`.
-/

namespace Venial.Conformance
open Venial Tok

/-- `parse_item(..).unwrap()` -/
def item (ts : List TT) : Option Item :=
  match parse_item ts with
  | .ok (.ok i) => some i
  | _ => none

/-- `parse_item(..)` -/
def result (ts : List TT) : Option (Except Error Item) :=
  match parse_item ts with
  | .ok x => some x
  | .error _ => none

/-- `parse_declaration_checked`, `/repo/src/tests.rs:19-26`: the item must print as the same text. -/
def checked (ts : List TT) : Option Item :=
  (item ts).bind fun i => if TT.displayL i.toTokens = TT.displayL ts then some i else none

/-- `parse_struct_declaration`, `/repo/src/tests.rs:961-966` -/
def struct (ts : List TT) : Option Struct := (item ts).bind fun i => i.as_struct

/-- `parse_generic_args_checked`, `/repo/src/tests.rs:28-41` -/
def args (ts : List TT) : Option GenericArgList :=
  match consume_generic_args ts with
  | .ok (some a, _) => if TT.displayL a.toTokens = TT.displayL ts then some a else none
  | _ => none

/-- `WhereClausePredicate::parse` -/
def predicate (ts : List TT) : Option WhereClausePredicate :=
  match WhereClausePredicate.parse ts with
  | .ok p => some p
  | .error _ => none

/-- `TypeExpr::as_path` -/
def path (t : TypeExpr) : Option Path :=
  match t.as_path with
  | .ok p => p
  | .error _ => none

/-- `TypeExpr::as_path` returns `None` -/
def isNotPath (t : Option TypeExpr) : Bool :=
  match t with
  | some t => (match t.as_path with | .ok none => true | _ => false)
  | none => false

/-- `as_inline_args().to_owned_args()` -/
def owned (p : GenericParamList) : Option GenericArgList := p.to_owned_args

/-- `assert_debug_snapshot!` -/
def shows {α : Type} (debug : α → Doc) (x : Option α) (expected : String) : Bool :=
  match x with
  | some x => (debug x).pretty == expected && !(debug x).panics
  | none => false

/-- `assert_quote_snapshot!` -/
def prints (x : Option Struct) (expected : String) : Bool :=
  match x with
  | some x => TT.displayL x.toTokens == expected
  | none => false

/-- `#[should_panic]` -/
def panics (ts : List TT) : Bool :=
  match parse_item ts with
  | .ok _ => false
  | .error _ => true

'''
open("/verif/lean/Verif/Conformance.lean", "w").write(HEAD + "\n".join(L) + "\nend Venial.Conformance\n")
print(len(tests), "tests,", sum(l.startswith("#guard") for l in L), "checks,", len(used), "snapshots used")
for f in sorted(set(glob.glob("/repo/src/snapshots/*.snap")) - used): print("unused", os.path.basename(f))
for s in skipped: print("SKIPPED", s)
