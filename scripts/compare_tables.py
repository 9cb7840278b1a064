#!/usr/bin/env python3
"""Compare the tables of the model with the tables in /repo.

The sources in /repo are read as text and parsed with `ast`; nothing of them is run. Of the model the
definitions are read as text. Prints one line for each table and exits with 1 if one differs.
"""

import ast
import os
import re
import sys

REPO = sys.argv[1] if len(sys.argv) > 1 else "/repo"
MODEL = os.path.join(os.path.dirname(os.path.abspath(__file__)), "..", "lean", "Verif", "Model")


def tree(name):
    with open(os.path.join(REPO, name), encoding="utf-8") as f:
        return ast.parse(f.read())


def assigned(name, var):
    for node in tree(name).body:
        if isinstance(node, ast.Assign) and any(getattr(t, "id", None) == var for t in node.targets):
            return node.value
    raise KeyError(var)


def lean(name, var):
    """The text of a definition of the model, up to the next empty line."""
    with open(os.path.join(MODEL, name), encoding="utf-8") as f:
        m = re.search(r"^def %s :[^\n]*?:=(.*?)(?:\n\n|\Z)" % var, f.read(), re.M | re.S)
    return m.group(1)


def words(text):
    return [ast.literal_eval('"%s"' % w) for w in re.findall(r'py "((?:[^"\\]|\\.)*)"', text)]


def opt(text):
    return None if text == "none" else int(text.split()[1])


FAILED = []


def check(what, there, here):
    if there == here:
        print("same: %s (%d)" % (what, len(there)))
    else:
        print("DIFFERENT: %s\n  /repo: %r\n  model: %r" % (what, there, here))
        FAILED.append(what)


# instructions.py: opcodes and the lists of names.

INS = "h800/instructions.py"
rows = []
table = assigned(INS, "OPCODES")
for key, value in zip(table.keys, table.values):
    args = [ast.literal_eval(a) for a in value.args]
    if len(args) == 5:
        args.append("unmasked")
    rows.append((key.value, *args))
pattern = (r'\(py "(\w+)", ⟨py "(\w+)", py "(\w+)", (none|some \d+), (none|some \d+), (\d+), '
           r'py "(\w+)"⟩\)')
model = [(k, m, c, opt(b23), opt(b7), int(op), t)
         for k, m, c, b23, b7, op, t in re.findall(pattern, lean("Opcodes.lean", "OPCODES"))]
check("OPCODES", rows, model)

for var in ("CONTROL_INSTRUCTIONS", "DATA_CONSTANTS", "CONTROL_CONSTANTS", "EXTENDED_INSTRUCTIONS",
            "MISC_INSTRUCTIONS", "ARGUS_INSTRUCTIONS"):
    check(var, [k.value for k in assigned(INS, var).keys], words(lean("Opcodes.lean", var)))

# instructions.py: the classes.

machine, constants, control = [], [], []
for node in tree(INS).body:
    if not isinstance(node, ast.ClassDef) or node.name == "NotImplementedException":
        continue
    base = node.bases[0].attr
    if base in ("Constant", "DataConstant", "ControlConstant") or "Constant" in base:
        init = [n for n in node.body if isinstance(n, ast.FunctionDef)][0]
        call = init.body[0].value
        consts = [a.value for a in call.args if isinstance(a, ast.Constant)]
        consts += [k.value.value for k in call.keywords if isinstance(k.value, ast.Constant)]
        constants.append((node.name, consts[0]))
        continue
    inits = [n for n in node.body if isinstance(n, ast.FunctionDef)]
    if not inits:
        control.append(node.name)
        continue
    names = [a.arg for a in inits[0].args.args[1:]]
    call = inits[0].body[0].value
    given = {k.arg: k.value for k in call.keywords}
    mnemonic = given["opcode"].slice
    mnemonic = getattr(mnemonic, "value", mnemonic)
    mnemonic = getattr(mnemonic, "value", mnemonic)
    if names == ["sequence", "mask", "a", "b", "c"] and base == "Instruction":
        sig = "maskable"
    elif names == ["sequence", "a", "b", "c"]:
        sig = "scientific" if base == "Scientific" else "unmasked"
    elif names == [] and base == "GeneralUnmasked":
        sig = "proceed"
    elif names == ["paddr"]:
        sig = "peripheral"
    elif names == ["sequence"] and base == "Simulator":
        sig = "simulator"
    else:
        sig = "unknown %s %s" % (base, names)
    # What is passed on has the name of the parameter, except for the zeros of Proceed.
    for arg, value in given.items():
        if arg != "opcode" and not (isinstance(value, ast.Name) and value.id == arg) and \
                not (sig == "proceed" and isinstance(value, ast.Constant) and value.value == 0):
            sig = "passes %s as %s" % (ast.dump(value), arg)
    machine.append((node.name, mnemonic, sig))
model = re.findall(r'\(py "(\w+)", py "(\w+)", \.(\w+)\)', lean("Opcodes.lean", "CLASSES"))
check("machine-instruction classes", machine, model)
model = re.findall(r'\(py "(\w+)", py "(\w+)"\)', lean("Opcodes.lean", "CONSTANT_CLASSES"))
check("constant classes", constants, model)
check("control classes", control, words(lean("Opcodes.lean", "CONTROL_CLASSES")))

# charset.py, registers.py, symbol_table.py and the card layouts.

table = ast.literal_eval(assigned("h800/charset.py", "CHARSET"))
model = []
for code, char in re.findall(r"\((\d+), (none|some '(?:[^'\\]|\\.)')\)", lean("Opcodes.lean", "CHARSET")):
    model.append((int(code), None if char == "none" else ast.literal_eval(char[5:])))
check("CHARSET", list(table.items()), model)

for var in ("REGISTERS", "ALIASES"):
    table = ast.literal_eval(assigned("h800/registers.py", var))
    model = [(n, int(k)) for n, k in re.findall(r'\(py "(\w+)", (\d+)\)', lean("Registers.lean", var))]
    check(var, list(table.items()), model)

check("TAG_PREFIXES", list(ast.literal_eval(assigned("h800/symbol_table.py", "TAG_PREFIXES"))),
      words(lean("Symbols.lean", "TAG_PREFIXES")))
check("_FIELDNAMES", ast.literal_eval(assigned("h800/arguscard.py", "_FIELDNAMES")),
      words(lean("Cards.lean", "DEFAULT_FIELDNAMES")))
check("_DEFAULT_FIELDNAMES", ast.literal_eval(assigned("h800/punchcard.py", "_DEFAULT_FIELDNAMES")),
      words(lean("Cards.lean", "DEFAULT_FIELDNAMES")))
fields = [int(n) for n in re.findall(r"\d+", lean("Cards.lean", "DEFAULT_FIELDS"))]
check("_FIELDS", ast.literal_eval(assigned("h800/arguscard.py", "_FIELDS")), fields)
check("_DEFAULT_FIELDS", ast.literal_eval(assigned("h800/punchcard.py", "_DEFAULT_FIELDS")), fields)

# The options of the tools.

TOOLS = [("check-instructions", "FILES", "CHECK_INSTRUCTIONS"), ("check-symbols", "FILES", "CHECK_SYMBOLS"),
         ("find-symbols", "FIND", "FIND_SYMBOLS"), ("list-instructions", "LIST", "LIST_INSTRUCTIONS"),
         ("list-symbols", "FILES", "VERBOSE"), ("listing", "FILES", "VERBOSE"), ("parse", "FILES", "PARSE"),
         ("genlines", "GENLINES", None), ("genpages", "GENPAGES", None)]
for tool, usage, opts in TOOLS:
    options, helps, usages = [], [], []
    for node in ast.walk(tree("tools/%s.py" % tool)):
        if not isinstance(node, ast.Call):
            continue
        if getattr(node.func, "id", None) == "OptionParser":
            usages.append(ast.literal_eval(node.args[0]))
        if getattr(node.func, "attr", None) == "add_option":
            given = {k.arg: ast.literal_eval(k.value) for k in node.keywords}
            assert given["action"] == "store_true" and given["default"] is False
            options.append((node.lineno, (*[a.value for a in node.args], given["dest"])))
            helps.append((node.lineno, given["help"]))
    options = [o for _, o in sorted(options)]
    helps = [h for _, h in sorted(helps)]
    check("usage of " + tool, usages, words(lean("LastWords.lean", usage + "_USAGE")))
    if opts is None:
        check("options of " + tool, options, [])
        continue
    text = lean("Options.lean", opts + "_OPTS")
    model = re.findall(r'⟨py "([^"]*)", py "([^"]*)", some \(py "(\w+)"\)⟩', text)
    check("options of " + tool, options, model)
    check("help of " + tool, helps, words(lean("Help.lean", opts + "_HELPS")))

sys.exit(1 if FAILED else 0)
